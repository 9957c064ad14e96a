import Verif.Proof.Damage
import Verif.Proof.Toy
import Verif.Props.CTR

/-!
# C84: what a damaged ciphertext does to the plaintext

For all five modes: which bytes of the decrypted message depend on which bytes of IV and ciphertext, and how. `block n j b` is block number `j` of the
buffer `b`. The messages `m` and `m'` are whatever `decrypt` delivers, with any padding scheme, so bytes cut off by unpadding are not spoken of.
-/

namespace Verif.Props
open Verif.Model Verif.Spec

variable {c : BlockCipher} {E D : Bytes → Bytes}

/-- Block number `j` of a buffer cut into blocks of `n` bytes. -/
def block (n j : Nat) (b : Bytes) : Bytes := (b.drop (n * j)).take n

private theorem block_getD (n j : Nat) (b : Bytes) {r : Nat} (hr : r < n) : (block n j b).getD r 0#8 = b.getD (n * j + r) 0#8 := by
  simp only [block, List.getD_eq_getElem?_getD, List.getElem?_take, if_pos hr, List.getElem?_drop]

/-- Buffers of the same length with the same bytes are equal. -/
private theorem ext_getD {a b : Bytes} (hl : a.length = b.length) (h : ∀ i, i < a.length → a.getD i 0#8 = b.getD i 0#8) : a = b := by
  apply List.ext_getElem hl
  intro i h1 h2
  have := h i h1
  rwa [List.getD_eq_getElem?_getD, List.getD_eq_getElem?_getD, List.getElem?_eq_getElem h1, List.getElem?_eq_getElem h2] at this

private theorem block_ext {n j : Nat} {a b : Bytes} (hl : a.length = b.length) (h : ∀ i, i / n = j → a.getD i 0#8 = b.getD i 0#8) : block n j a = block n j b := by
  apply ext_getD
  · simp only [block, List.length_take, List.length_drop, hl]
  · intro r hr
    have hr' : r < n := by simp only [block, List.length_take] at hr; omega
    rw [block_getD _ _ _ hr', block_getD _ _ _ hr']
    apply h
    rw [Nat.mul_add_div (by omega), Nat.div_eq_of_lt hr', Nat.add_zero]

/-- C84 (ECB): a plaintext byte depends on its own ciphertext block only, wherever that block stands. -/
theorem C84_ecb (h : Lawful c E D) (p p' : Padding) (ct ct' m m' : Bytes) (hm : ECB.decrypt c p ct = .ok m) (hm' : ECB.decrypt c p' ct' = .ok m')
    (j j' : Nat) (hb : block c.bs j ct = block c.bs j' ct') (r : Nat) (hr : r < c.bs)
    (hj : c.bs * j + r < m.length) (hj' : c.bs * j' + r < m'.length) : m.getD (c.bs * j + r) 0#8 = m'.getD (c.bs * j' + r) 0#8 := by
  unfold block at hb
  rw [ECB.decrypt_byte h hm hr hj, ECB.decrypt_byte h hm' hr hj', hb]

/-- C84 (ECB): the ciphertext shows exactly which blocks of the message are equal. `hp` says that the padded tail is a number of blocks: true for the
default padding, and for the empty one if `m` is a number of blocks. -/
theorem C84_ecb_pattern (h : Lawful c E D) (p : Padding) (m ct : Bytes) (hct : ECB.encrypt c p m = .ok ct)
    (hp : (p.padding (m.drop (c.bs * (m.length / c.bs)))).length % c.bs = 0)
    (j j' : Nat) (hj : c.bs * (j + 1) ≤ m.length) (hj' : c.bs * (j' + 1) ≤ m.length) :
    block c.bs j ct = block c.bs j' ct ↔ block c.bs j m = block c.bs j' m := by
  obtain ⟨blocks, t, hb, ht, rfl⟩ := exists_blocks h.pos m
  have hl : (blocks.flatten ++ t).length / c.bs = blocks.length := by
    rw [List.length_append, hb.length_flatten, Nat.mul_add_div h.pos, Nat.div_eq_of_lt ht, Nat.add_zero]
  rw [hl, ← hb.length_flatten, List.drop_left] at hp
  rw [ECB.encrypt_eq h hb ht (blocksOf_isBlocks c.bs _) (flatten_blocksOf h.pos hp).symm] at hct
  cases hct
  have key : ∀ k, c.bs * (k + 1) ≤ (blocks.flatten ++ t).length → ∃ b, b.length = c.bs ∧ block c.bs k (blocks.flatten ++ t) = b ∧
      block c.bs k (ecb E (blocks ++ blocksOf c.bs (p.padding t))).flatten = E b := by
    intro k hk
    have hk' : k < blocks.length := by
      rw [List.length_append, hb.length_flatten] at hk
      refine Nat.lt_of_mul_lt_mul_left (a := c.bs) ?_
      rw [Nat.mul_add] at hk; have := h.pos
      rcases Nat.lt_or_ge (c.bs * k) (c.bs * blocks.length) with h1 | h1
      · exact h1
      · have : c.bs * blocks.length + t.length < c.bs * k + c.bs * 1 := by omega
        omega
    refine ⟨blocks[k], hb _ (List.getElem_mem hk'), ?_, ?_⟩
    · have h1 := flatten_block hb k
      rw [List.getD_eq_getElem?_getD, List.getElem?_eq_getElem hk', Option.getD_some] at h1
      rw [← h1, block, List.drop_append, List.take_append]
      have h2 : c.bs - (blocks.flatten.drop (c.bs * k)).length = 0 := by
        rw [List.length_drop, hb.length_flatten]
        have : c.bs * (k + 1) ≤ c.bs * blocks.length := Nat.mul_le_mul_left _ hk'
        rw [Nat.mul_add] at this; omega
      rw [h2]; simp
    · have h1 := flatten_block (ECB.ecb_isBlocks h (hb.append (blocksOf_isBlocks c.bs (p.padding t)))) k
      rw [block, h1]
      rw [ecb, List.getD_eq_getElem?_getD, List.getElem?_map, List.getElem?_append_left hk', List.getElem?_eq_getElem hk']
      rfl
  obtain ⟨b, hbl, h1, h2⟩ := key j hj
  obtain ⟨b', hbl', h1', h2'⟩ := key j' hj'
  rw [h1, h1', h2, h2']
  exact ⟨fun he => by rw [← h.DE b hbl, he, h.DE b' hbl'], fun he => by rw [he]⟩

example : ECB.encrypt (Toy.cipher 2) (.default 2) [1, 2, 3, 4, 1, 2, 5] = .ok [3, 2, 5, 4, 3, 2, 0x81, 6, 1, 1] ∧
    ((Padding.default 2).padding (([1, 2, 3, 4, 1, 2, 5] : Bytes).drop (2 * (7 / 2)))).length % 2 = 0 := by decide
example : block 2 0 [1, 2, 3, 4, 1, 2, 5] = block 2 2 [1, 2, 3, 4, 1, 2, 5] ∧ block 2 0 [3, 2, 5, 4, 3, 2] ≠ block 2 1 [3, 2, 5, 4, 3, 2] := by decide

/-- C84 (CBC): a plaintext byte is a byte that depends on its own ciphertext block only, xored with the byte one block earlier in IV and ciphertext. -/
theorem C84_cbc (h : Lawful c E D) (p p' : Padding) (iv iv' ct ct' m m' : Bytes) (hiv : iv.length = c.bs) (hiv' : iv'.length = c.bs)
    (hm : CBC.decrypt c p iv ct = .ok m) (hm' : CBC.decrypt c p' iv' ct' = .ok m')
    (j j' : Nat) (hb : block c.bs j ct = block c.bs j' ct') (r : Nat) (hr : r < c.bs)
    (hj : c.bs * j + r < m.length) (hj' : c.bs * j' + r < m'.length) :
    m.getD (c.bs * j + r) 0#8 ^^^ (iv ++ ct).getD (c.bs * j + r) 0#8 = m'.getD (c.bs * j' + r) 0#8 ^^^ (iv' ++ ct').getD (c.bs * j' + r) 0#8 := by
  unfold block at hb
  rw [CBC.decrypt_byte h hiv hm hr hj, CBC.decrypt_byte h hiv' hm' hr hj', hb]
  simp [BitVec.xor_assoc]

private theorem getD_prev {iv ct : Bytes} {i : Nat} (h : iv.length ≤ i) : (iv ++ ct).getD i 0#8 = ct.getD (i - iv.length) 0#8 := by
  rw [List.getD_eq_getElem?_getD, List.getD_eq_getElem?_getD, List.getElem?_append_right h]

private theorem xor_swap {a b x y : Byte} (h : a ^^^ x = b ^^^ y) : b = a ^^^ x ^^^ y := by
  rw [h, BitVec.xor_assoc, BitVec.xor_self, BitVec.xor_zero]

/-- C84 (CBC): damage to ciphertext block `k` destroys plaintext block `k`, flips in block `k + 1` exactly the bits that were flipped, and nothing else. -/
theorem C84_cbc_damage (h : Lawful c E D) (p : Padding) (iv ct ct' m m' : Bytes) (hiv : iv.length = c.bs)
    (hm : CBC.decrypt c p iv ct = .ok m) (hm' : CBC.decrypt c p iv ct' = .ok m') (k : Nat) (hl : ct.length = ct'.length)
    (hd : ∀ i, i / c.bs ≠ k → ct.getD i 0#8 = ct'.getD i 0#8) :
    (∀ i, i < m.length → i < m'.length →
      (i / c.bs ≠ k → i / c.bs ≠ k + 1 → m'.getD i 0#8 = m.getD i 0#8) ∧
      (i / c.bs = k + 1 → m'.getD i 0#8 = m.getD i 0#8 ^^^ ct.getD (i - c.bs) 0#8 ^^^ ct'.getD (i - c.bs) 0#8)) ∧
    (ct ≠ ct' → c.bs * (k + 1) ≤ m.length → c.bs * (k + 1) ≤ m'.length → block c.bs k m ≠ block c.bs k m') := by
  have hpos := h.pos
  -- one block earlier
  have hprev : ∀ i, i / c.bs ≠ k + 1 → (iv ++ ct).getD i 0#8 = (iv ++ ct').getD i 0#8 := by
    intro i hi
    by_cases h1 : iv.length ≤ i
    · rw [getD_prev h1, getD_prev h1]
      apply hd
      rw [hiv] at h1 ⊢
      intro h2
      have : (i - c.bs + c.bs) / c.bs = k + 1 := by rw [Nat.add_div_right _ hpos, h2]
      rw [Nat.sub_add_cancel h1] at this
      exact hi this
    · rw [List.getD_eq_getElem?_getD, List.getD_eq_getElem?_getD, List.getElem?_append_left (by omega), List.getElem?_append_left (by omega)]
  have hkey : ∀ i, i < m.length → i < m'.length → i / c.bs ≠ k → m'.getD i 0#8 = m.getD i 0#8 ^^^ (iv ++ ct).getD i 0#8 ^^^ (iv ++ ct').getD i 0#8 := by
    intro i hi hi' hk
    have hb : block c.bs (i / c.bs) ct = block c.bs (i / c.bs) ct' := block_ext hl fun x hx => hd x (by rw [hx]; exact hk)
    have hi0 := Nat.div_add_mod i c.bs
    have := C84_cbc h p p iv iv ct ct' m m' hiv hiv hm hm' (i / c.bs) (i / c.bs) hb (i % c.bs) (Nat.mod_lt _ hpos) (by omega) (by omega)
    rw [hi0] at this
    exact xor_swap this
  refine ⟨fun i hi hi' => ⟨fun hk hk1 => ?_, fun hk => ?_⟩, ?_⟩
  · rw [hkey i hi hi' hk, hprev i hk1, BitVec.xor_assoc, BitVec.xor_self, BitVec.xor_zero]
  · have h1 : iv.length ≤ i := by
      rw [hiv]
      have := Nat.div_add_mod i c.bs
      rw [hk, Nat.mul_add] at this; omega
    rw [hkey i hi hi' (by omega), getD_prev h1, getD_prev h1, hiv]
  · intro hne h1 h2 he
    apply hne
    have hmod : ∀ {x y : Bytes}, CBC.decrypt c p iv x = .ok y → c.bs * (k + 1) ≤ y.length → c.bs * (k + 1) ≤ x.length := by
      intro x y hxy hy
      unfold CBC.decrypt at hxy
      split at hxy
      · cases hxy
      · rename_i h3
        have hmod := Classical.not_not.1 h3
        have h4 : CBC.decrypt c p iv x = .ok y := by unfold CBC.decrypt; rw [if_neg h3]; exact hxy
        rw [← flatten_blocksOf hpos hmod, CBC.decrypt_eq h hiv (blocksOf_isBlocks _ _)] at h4
        have h5 := (unpad_prefix h4).length_le
        have h6 : (cbcDec D iv (blocksOf c.bs x)).flatten.length ≤ c.bs * (blocksOf c.bs x).length := by
          generalize hbs : blocksOf c.bs x = bs
          have hb : IsBlocks c.bs bs := hbs ▸ blocksOf_isBlocks c.bs x
          clear * - h hb
          induction bs generalizing iv with
          | nil => simp [cbcDec]
          | cons b bs ih =>
            have := ih (iv := b) hb.tail
            have h7 := h.lenD b hb.head
            simp only [cbcDec, List.flatten_cons, List.length_append, length_xorBytes, List.length_cons, Nat.mul_add]
            omega
        have h7 := flatten_blocksOf hpos hmod
        rw [← h7, (blocksOf_isBlocks c.bs x).length_flatten]
        omega
    have hx := hmod hm h1
    have hx' := hmod hm' h2
    have hbl : ∀ {x : Bytes}, c.bs * (k + 1) ≤ x.length → ((x.drop (c.bs * k)).take c.bs).length = c.bs := by
      intro x hx
      rw [Nat.mul_add] at hx
      rw [List.length_take, List.length_drop]; omega
    have hD : D ((ct.drop (c.bs * k)).take c.bs) = D ((ct'.drop (c.bs * k)).take c.bs) := by
      apply ext_getD
      · rw [h.lenD _ (hbl hx), h.lenD _ (hbl hx')]
      · intro r hr
        rw [h.lenD _ (hbl hx)] at hr
        have a1 : c.bs * k + r < m.length := by rw [Nat.mul_add] at h1; omega
        have a2 : c.bs * k + r < m'.length := by rw [Nat.mul_add] at h2; omega
        have b1 := CBC.decrypt_byte h hiv hm hr a1
        have b2 := CBC.decrypt_byte h hiv hm' hr a2
        have b3 : m.getD (c.bs * k + r) 0#8 = m'.getD (c.bs * k + r) 0#8 := by rw [← block_getD _ _ _ hr, ← block_getD _ _ _ hr, he]
        have b4 := hprev (c.bs * k + r) (by rw [Nat.mul_add_div hpos, Nat.div_eq_of_lt hr]; omega)
        rw [b1, b2, b4] at b3
        have := congrArg (· ^^^ (iv ++ ct').getD (c.bs * k + r) 0#8) b3
        simpa only [BitVec.xor_assoc, BitVec.xor_self, BitVec.xor_zero] using this
    have hC : block c.bs k ct = block c.bs k ct' := by
      have := congrArg E hD
      rwa [h.ED _ (hbl hx), h.ED _ (hbl hx')] at this
    apply ext_getD hl
    intro i _
    by_cases hik : i / c.bs = k
    · have hi0 := Nat.div_add_mod i c.bs
      rw [hik] at hi0
      rw [← hi0, ← block_getD _ _ _ (Nat.mod_lt _ hpos), ← block_getD _ _ _ (Nat.mod_lt _ hpos), hC]
    · exact hd i hik

example : CBC.decrypt (Toy.cipher 2) .empty [7, 9] [1, 2, 3, 4, 5, 6, 7, 8] = .ok [6, 9, 2, 0, 6, 0, 2, 0] ∧
    CBC.decrypt (Toy.cipher 2) .empty [7, 9] [1, 2, 3, 20, 5, 6, 7, 8] = .ok [6, 9, 18, 0, 6, 16, 2, 0] := by decide
example : ∀ i, i / 2 ≠ 1 → ([1, 2, 3, 4, 5, 6, 7, 8] : Bytes).getD i 0 = ([1, 2, 3, 20, 5, 6, 7, 8] : Bytes).getD i 0 := by
  intro i hi
  match i with
  | 0 | 1 | 4 | 5 | 6 | 7 => rfl
  | 2 | 3 => exact absurd rfl hi
  | _ + 8 => rfl

/-- C84 (CBC): after lost or inserted blocks, and with any IV, decryption is right again from the second common block on. -/
theorem C84_cbc_resync (h : Lawful c E D) (p p' : Padding) (iv iv' a a' b m m' : Bytes) (hiv : iv.length = c.bs) (hiv' : iv'.length = c.bs)
    (ha : a.length % c.bs = 0) (ha' : a'.length % c.bs = 0)
    (hm : CBC.decrypt c p iv (a ++ b) = .ok m) (hm' : CBC.decrypt c p' iv' (a' ++ b) = .ok m') (i : Nat) (hi : c.bs ≤ i)
    (h1 : a.length + i < m.length) (h2 : a'.length + i < m'.length) : m.getD (a.length + i) 0#8 = m'.getD (a'.length + i) 0#8 := by
  have hpos := h.pos
  have e : ∀ x : Bytes, x.length % c.bs = 0 → x.length + i = c.bs * (x.length / c.bs + i / c.bs) + i % c.bs := by
    intro x hx
    have h3 := Nat.div_add_mod x.length c.bs
    have h4 := Nat.div_add_mod i c.bs
    rw [Nat.mul_add]; omega
  have hbk : ∀ x : Bytes, x.length % c.bs = 0 → block c.bs (x.length / c.bs + i / c.bs) (x ++ b) = block c.bs (i / c.bs) b := by
    intro x hx
    have h3 := Nat.div_add_mod x.length c.bs
    rw [block, block, List.drop_append, List.drop_eq_nil_of_le (by rw [Nat.mul_add]; omega), List.nil_append, Nat.mul_add,
      show c.bs * (x.length / c.bs) + c.bs * (i / c.bs) - x.length = c.bs * (i / c.bs) by omega]
  have := C84_cbc h p p' iv iv' (a ++ b) (a' ++ b) m m' hiv hiv' hm hm' _ _ ((hbk a ha).trans (hbk a' ha').symm) (i % c.bs) (Nat.mod_lt _ hpos)
    (by rw [← e a ha]; exact h1) (by rw [← e a' ha']; exact h2)
  rw [← e a ha, ← e a' ha'] at this
  have hp : ∀ (x v : Bytes), v.length = c.bs → (v ++ (x ++ b)).getD (x.length + i) 0#8 = b.getD (i - c.bs) 0#8 := by
    intro x v hv
    rw [getD_prev (by omega), getD_prev (by omega), hv]
    congr 1; omega
  rw [hp a iv hiv, hp a' iv' hiv'] at this
  have h5 := xor_swap this
  rw [h5, BitVec.xor_assoc, BitVec.xor_self, BitVec.xor_zero]

example : CBC.decrypt (Toy.cipher 2) .empty [7, 9] ([1, 2] ++ [3, 4, 5, 6, 7, 8]) = .ok [6, 9, 2, 0, 6, 0, 2, 0] ∧
    CBC.decrypt (Toy.cipher 2) .empty [0, 1] ([9, 8, 7, 6] ++ [3, 4, 5, 6, 7, 8]) = .ok [7, 9, 12, 14, 4, 4, 6, 0, 2, 0] := by decide

/-- C84 (CFB): a plaintext byte is its ciphertext byte xored with a byte that depends only on the last `c.bs` bytes of IV and ciphertext before its segment. -/
theorem C84_cfb (h : Lawful c E D) (s : Nat) (hs0 : 0 < s) (hs : s ≤ c.bs) (p p' : Padding) (iv iv' ct ct' m m' : Bytes) (hiv : iv.length = c.bs)
    (hiv' : iv'.length = c.bs) (hm : CFB.decrypt c p s iv ct = .ok m) (hm' : CFB.decrypt c p' s iv' ct' = .ok m')
    (j j' : Nat) (hb : ((iv ++ ct).drop (s * j)).take c.bs = ((iv' ++ ct').drop (s * j')).take c.bs) (r : Nat) (hr : r < s)
    (hj : s * j + r < m.length) (hj' : s * j' + r < m'.length) :
    m.getD (s * j + r) 0#8 ^^^ ct.getD (s * j + r) 0#8 = m'.getD (s * j' + r) 0#8 ^^^ ct'.getD (s * j' + r) 0#8 := by
  rw [CFB.decrypt_byte h hs0 hs hiv hm hr hj, CFB.decrypt_byte h hs0 hs hiv' hm' hr hj', hb]
  simp [BitVec.xor_assoc]

/-- C84 (CFB): after lost or inserted segments, and with any IV, decryption is right again from the first segment on that has a block of common ciphertext
before it. -/
theorem C84_cfb_resync (h : Lawful c E D) (s : Nat) (hs0 : 0 < s) (hs : s ≤ c.bs) (p p' : Padding) (iv iv' a a' b m m' : Bytes) (hiv : iv.length = c.bs)
    (hiv' : iv'.length = c.bs) (ha : a.length % s = 0) (ha' : a'.length % s = 0)
    (hm : CFB.decrypt c p s iv (a ++ b) = .ok m) (hm' : CFB.decrypt c p' s iv' (a' ++ b) = .ok m') (i : Nat) (hi : c.bs ≤ s * (i / s))
    (h1 : a.length + i < m.length) (h2 : a'.length + i < m'.length) : m.getD (a.length + i) 0#8 = m'.getD (a'.length + i) 0#8 := by
  have e : ∀ x : Bytes, x.length % s = 0 → x.length + i = s * (x.length / s + i / s) + i % s := by
    intro x hx
    have h3 := Nat.div_add_mod x.length s
    have h4 := Nat.div_add_mod i s
    rw [Nat.mul_add]; omega
  have hbk : ∀ x v : Bytes, x.length % s = 0 → v.length = c.bs →
      ((v ++ (x ++ b)).drop (s * (x.length / s + i / s))).take c.bs = (b.drop (s * (i / s) - c.bs)).take c.bs := by
    intro x v hx hv
    have h3 := Nat.div_add_mod x.length s
    rw [← List.append_assoc, List.drop_append, List.drop_eq_nil_of_le (by rw [Nat.mul_add, List.length_append]; omega), List.nil_append, Nat.mul_add,
      show s * (x.length / s) + s * (i / s) - (v ++ x).length = s * (i / s) - c.bs by rw [List.length_append]; omega]
  have := C84_cfb h s hs0 hs p p' iv iv' (a ++ b) (a' ++ b) m m' hiv hiv' hm hm' _ _ ((hbk a iv ha hiv).trans (hbk a' iv' ha' hiv').symm) (i % s)
    (Nat.mod_lt _ hs0) (by rw [← e a ha]; exact h1) (by rw [← e a' ha']; exact h2)
  rw [← e a ha, ← e a' ha', getD_prev (by omega), getD_prev (by omega), Nat.add_sub_cancel_left, Nat.add_sub_cancel_left] at this
  have h5 := xor_swap this
  rw [h5, BitVec.xor_assoc, BitVec.xor_self, BitVec.xor_zero]

example : CFB.decrypt (Toy.cipher 2) .empty 1 [7, 9] ([1, 2, 3, 4] ++ [5, 6, 7, 8]) = .ok [11, 0, 0, 0, 0, 0, 0, 0] ∧
    CFB.decrypt (Toy.cipher 2) .empty 1 [1, 9] ([1, 2] ++ [5, 6, 7, 8]) = .ok [11, 0, 6, 0, 0, 0] := by decide

/-- C84 (CFB): damage to ciphertext segment `k` flips in that segment exactly the bits that were flipped, leaves what comes before alone, and also what comes
after, from the first segment on that begins at least a block after the end of the damage. -/
theorem C84_cfb_damage (h : Lawful c E D) (s : Nat) (hs0 : 0 < s) (hs : s ≤ c.bs) (p : Padding) (iv ct ct' m m' : Bytes) (hiv : iv.length = c.bs)
    (hm : CFB.decrypt c p s iv ct = .ok m) (hm' : CFB.decrypt c p s iv ct' = .ok m') (k : Nat) (hl : ct.length = ct'.length)
    (hd : ∀ i, i / s ≠ k → ct.getD i 0#8 = ct'.getD i 0#8) (i : Nat) (hi : i < m.length) (hi' : i < m'.length)
    (hk : i / s ≤ k ∨ s * (k + 1) + c.bs ≤ s * (i / s)) :
    m'.getD i 0#8 = m.getD i 0#8 ^^^ ct.getD i 0#8 ^^^ ct'.getD i 0#8 := by
  have hi0 := Nat.div_add_mod i s
  have hb : ((iv ++ ct).drop (s * (i / s))).take c.bs = ((iv ++ ct').drop (s * (i / s))).take c.bs := by
    apply ext_getD
    · simp only [List.length_take, List.length_drop, List.length_append, hl]
    · intro r hr
      have hr' : r < c.bs := by rw [List.length_take] at hr; omega
      simp only [List.getD_eq_getElem?_getD, List.getElem?_take, if_pos hr', List.getElem?_drop]
      simp only [← List.getD_eq_getElem?_getD]
      by_cases h1 : iv.length ≤ s * (i / s) + r
      · rw [getD_prev h1, getD_prev h1]
        apply hd
        intro h2
        have h3 : s * k ≤ s * (i / s) + r - iv.length := by rw [← h2]; exact Nat.mul_div_le _ _
        have h4 := Nat.lt_mul_div_succ (s * (i / s) + r - iv.length) hs0
        rw [h2] at h4
        rcases hk with hk | hk
        · have : s * (i / s) ≤ s * k := Nat.mul_le_mul_left _ hk
          omega
        · omega
      · rw [List.getD_eq_getElem?_getD, List.getD_eq_getElem?_getD, List.getElem?_append_left (by omega), List.getElem?_append_left (by omega)]
  have := C84_cfb h s hs0 hs p p iv iv ct ct' m m' hiv hiv hm hm' (i / s) (i / s) hb (i % s) (Nat.mod_lt _ hs0) (by omega) (by omega)
  rw [hi0] at this
  exact xor_swap this

example : CFB.decrypt (Toy.cipher 2) .empty 1 [7, 9] [1, 2, 3, 4, 5, 6, 7, 8] = .ok [11, 0, 0, 0, 0, 0, 0, 0] ∧
    CFB.decrypt (Toy.cipher 2) .empty 1 [7, 9] [1, 2, 3, 20, 5, 6, 7, 8] = .ok [11, 0, 0, 16, 16, 0, 0, 0] ∧ 1 * (3 + 1) + 2 ≤ 1 * (6 / 1) := by decide

/-- C84 (OFB): a flipped ciphertext bit flips the same bit of the message and no other, whatever the lengths. -/
theorem C84_ofb (h : Lawful c E D) (iv ct ct' m m' : Bytes) (hiv : iv.length = c.bs) (hm : OFB.decrypt c iv ct = .ok m) (hm' : OFB.decrypt c iv ct' = .ok m')
    (i : Nat) (hi : i < ct.length) (hi' : i < ct'.length) : m'.getD i 0#8 = m.getD i 0#8 ^^^ ct.getD i 0#8 ^^^ ct'.getD i 0#8 := by
  rw [OFB.decrypt, OFB.encrypt_eq h hiv] at hm hm'
  cases hm; cases hm'
  rw [ofb, ofb, streamXor_byte _ h.pos (OFB.length_ofbBlock h hiv) _ hi, streamXor_byte _ h.pos (OFB.length_ofbBlock h hiv) _ hi']
  simp [BitVec.xor_assoc]

example : OFB.decrypt (Toy.cipher 2) [7, 9] [1, 2, 3, 4, 5] = .ok [11, 10, 10, 15, 9] ∧
    OFB.decrypt (Toy.cipher 2) [7, 9] [1, 2, 3, 20, 5] = .ok [11, 10, 10, 31, 9] := by decide

/-- C84 (CTR): the same, from the same counter. -/
theorem C84_ctr {κ : Type} {ops : CounterOps κ} (h : Lawful c E D) (k : κ) (hv : ∀ i, ∃ v, ops.value k i = some v ∧ c.bs ≤ v.length)
    (ct ct' m m' : Bytes) (k1 k2 : κ) (hm : CTR.decrypt c ops k ct = .ok (k1, m)) (hm' : CTR.decrypt c ops k ct' = .ok (k2, m'))
    (i : Nat) (hi : i < ct.length) (hi' : i < ct'.length) : m'.getD i 0#8 = m.getD i 0#8 ^^^ ct.getD i 0#8 ^^^ ct'.getD i 0#8 := by
  rw [CTR.decrypt, CTR.encryptInner_eq h hv] at hm hm'
  cases hm; cases hm'
  have hl := fun i => h.lenE _ (CTR.length_input hv i)
  rw [List.nil_append, List.nil_append, ctr, ctr, streamXor_byte _ h.pos hl _ hi, streamXor_byte _ h.pos hl _ hi']
  simp [BitVec.xor_assoc]

example : ∃ k, DefaultCounter.new [0, 9] 16 = .ok k ∧ CTR.new (Toy.cipher 2) DefaultCounter.ops k = .ok k ∧
    (∀ i, ∃ v, DefaultCounter.ops.value k i = some v ∧ (Toy.cipher 2).bs ≤ v.length) ∧
    (CTR.decrypt (Toy.cipher 2) DefaultCounter.ops k [1, 2, 3, 4, 5]).map (·.2) = .ok [11, 3, 8, 5, 9] :=
  ⟨⟨16, [0, 9], none⟩, by decide, by decide, fun i => ⟨_, (C14_default_counter (c := Toy.cipher 2) [0, 9] 16 ⟨16, [0, 9], none⟩ (by decide) (by decide) i).1,
    (C14_default_counter (c := Toy.cipher 2) [0, 9] 16 ⟨16, [0, 9], none⟩ (by decide) (by decide) i).2.1⟩, by decide⟩

end Verif.Props
