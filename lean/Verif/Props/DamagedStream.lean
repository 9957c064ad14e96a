import Verif.Props.Prompt
import Verif.Props.Damage

/-! C127: what a receiving stream makes of a damaged ciphertext, while it arrives. -/

namespace Verif.Props
open Model Spec
variable {c : BlockCipher} {E D : Bytes → Bytes} {κ : Type} {cops : CounterOps κ} {σ : Type}

private theorem of_prompt {str : Stream σ} {s0 : StreamSt σ} {ready : Nat → Nat} {one : Bytes → Res Bytes} (h : Prompt str s0 ready one)
    {ops : List (Bytes × Bool)} {m : Bytes} (hm : Released str s0 ops m) :
    one ((written ops).take (ready (written ops).length)) = .ok m ∧ m.length = ready (written ops).length := by
  obtain ⟨out, s, h1, h2, h3, -⟩ := h ops
  obtain ⟨out', s', g1, rfl⟩ := hm
  rw [h1] at g1
  cases g1
  exact ⟨h2, h3⟩

private theorem getD_take' (l : Bytes) {q i : Nat} (h : i < q) : (l.take q).getD i 0#8 = l.getD i 0#8 := by
  rw [List.getD_eq_getElem?_getD, List.getD_eq_getElem?_getD, List.getElem?_take_of_lt h]

private theorem block_take (n j : Nat) (l : Bytes) {q : Nat} (h : n * (j + 1) ≤ q) : block n j (l.take q) = block n j l := by
  unfold block
  rw [List.drop_take, List.take_take, Nat.min_eq_left]
  rw [Nat.mul_add] at h
  omega

/-- C127, ECB: equal ciphertext blocks, wherever they stand in whatever was written, are released as equal message blocks. -/
theorem C127_ecb (h : Lawful c E D) (p : Padding) (ops ops' : List (Bytes × Bool)) (m m' : Bytes)
    (hm : Released (ECB.decStream c p) ECB.init ops m) (hm' : Released (ECB.decStream c p) ECB.init ops' m')
    (j j' : Nat) (hb : block c.bs j (written ops) = block c.bs j' (written ops')) (hj : c.bs * (j + 1) ≤ m.length) (hj' : c.bs * (j' + 1) ≤ m'.length)
    (r : Nat) (hr : r < c.bs) : m.getD (c.bs * j + r) 0#8 = m'.getD (c.bs * j' + r) 0#8 := by
  obtain ⟨h1, h2⟩ := of_prompt (C126_ecb_decrypt h p) hm
  obtain ⟨g1, g2⟩ := of_prompt (C126_ecb_decrypt h p) hm'
  have e := hj
  have e' := hj'
  rw [Nat.mul_add] at e e'
  exact C84_ecb h _ _ _ _ _ _ h1 g1 j j' (by rw [block_take _ _ _ (by omega), block_take _ _ _ (by omega), hb]) r hr (by omega) (by omega)

/-- C127, CBC: one damaged block of ciphertext changes the block released for it and the bits at the same places of the next one; all else that is
released is as it was. -/
theorem C127_cbc_damage (h : Lawful c E D) (p : Padding) (iv : Bytes) (hiv : iv.length = c.bs) (ops ops' : List (Bytes × Bool)) (m m' : Bytes)
    (hm : Released (CBC.decStream c p iv) (CBC.init iv) ops m) (hm' : Released (CBC.decStream c p iv) (CBC.init iv) ops' m') (k : Nat)
    (hl : (written ops).length = (written ops').length)
    (hd : ∀ i, i / c.bs ≠ k → (written ops).getD i 0#8 = (written ops').getD i 0#8) :
    m.length = m'.length ∧ ∀ i, i < m.length →
      (i / c.bs ≠ k → i / c.bs ≠ k + 1 → m'.getD i 0#8 = m.getD i 0#8) ∧
      (i / c.bs = k + 1 → m'.getD i 0#8 = m.getD i 0#8 ^^^ (written ops).getD (i - c.bs) 0#8 ^^^ (written ops').getD (i - c.bs) 0#8) := by
  obtain ⟨h1, h2⟩ := of_prompt (C126_cbc_decrypt h p iv hiv) hm
  obtain ⟨g1, g2⟩ := of_prompt (C126_cbc_decrypt h p iv hiv) hm'
  have e : m.length = m'.length := by rw [h2, g2, hl]
  refine ⟨e, fun i hi => ?_⟩
  have hh := (C84_cbc_damage h _ iv _ _ _ _ hiv h1 g1 k (by rw [List.length_take, List.length_take, hl]) (fun i hik => by
    by_cases hq : i < m.length
    · rw [getD_take' _ (by omega), getD_take' _ (by omega), hd i hik]
    · have z : ∀ (l : Bytes) q, q ≤ i → (l.take q).getD i 0#8 = 0#8 := fun l q hq => by
        rw [List.getD_eq_getElem?_getD, List.getElem?_eq_none (by rw [List.length_take]; omega)]; rfl
      rw [z _ _ (by omega), z _ _ (by omega)])).1 i hi (by omega)
  rw [getD_take' _ (by omega), getD_take' _ (by omega)] at hh
  exact hh

/-- C127, CBC: after lost or inserted blocks, and with any IV, the stream releases the right bytes again from the second common block on. -/
theorem C127_cbc_resync (h : Lawful c E D) (p : Padding) (iv iv' : Bytes) (hiv : iv.length = c.bs) (hiv' : iv'.length = c.bs) (a a' b m m' : Bytes)
    (ha : a.length % c.bs = 0) (ha' : a'.length % c.bs = 0) (ops ops' : List (Bytes × Bool)) (hw : written ops = a ++ b) (hw' : written ops' = a' ++ b)
    (hm : Released (CBC.decStream c p iv) (CBC.init iv) ops m) (hm' : Released (CBC.decStream c p iv') (CBC.init iv') ops' m')
    (i : Nat) (hi : c.bs ≤ i) :
    (a.length + i < m.length ↔ a'.length + i < m'.length) ∧
      (a.length + i < m.length → m.getD (a.length + i) 0#8 = m'.getD (a'.length + i) 0#8) := by
  have hpos := h.pos
  obtain ⟨h1, h2⟩ := of_prompt (C126_cbc_decrypt h p iv hiv) hm
  obtain ⟨g1, g2⟩ := of_prompt (C126_cbc_decrypt h p iv' hiv') hm'
  rw [hw] at h1 h2
  rw [hw'] at g1 g2
  rcases Nat.eq_zero_or_pos b.length with hb | hb
  · have z : ∀ x : Bytes, c.bs * (((x ++ b).length - 1) / c.bs) ≤ x.length := fun x => by
      have := Nat.mul_div_le ((x ++ b).length - 1) c.bs
      rw [List.length_append] at this ⊢; omega
    have z1 := z a
    have z2 := z a'
    exact ⟨by omega, by omega⟩
  have z : ∀ x : Bytes, x.length % c.bs = 0 → c.bs * (((x ++ b).length - 1) / c.bs) = x.length + c.bs * ((b.length - 1) / c.bs) := fun x hx => by
    have hq := Nat.div_add_mod x.length c.bs
    rw [List.length_append, show x.length + b.length - 1 = c.bs * (x.length / c.bs) + (b.length - 1) by omega, Nat.mul_add_div hpos, Nat.mul_add]; omega
  rw [z a ha] at h1 h2
  rw [z a' ha'] at g1 g2
  rw [List.take_length_add_append] at h1 g1
  refine ⟨by omega, fun hlt => ?_⟩
  exact C84_cbc_resync h _ _ iv iv' a a' _ m m' hiv hiv' ha ha' h1 g1 i hi hlt (by omega)

/-- C127, CFB: after lost or inserted segments, and with any IV, the stream releases the right bytes again from the first segment on that has a block of
common ciphertext before it. -/
theorem C127_cfb_resync (h : Lawful c E D) (s : Nat) (hs0 : 0 < s) (hs : s ≤ c.bs) (p : Padding) (iv iv' : Bytes) (hiv : iv.length = c.bs)
    (hiv' : iv'.length = c.bs) (a a' b m m' : Bytes) (ha : a.length % s = 0) (ha' : a'.length % s = 0) (ops ops' : List (Bytes × Bool))
    (hw : written ops = a ++ b) (hw' : written ops' = a' ++ b)
    (hm : Released (CFB.decStream c p s iv) (CFB.init iv) ops m) (hm' : Released (CFB.decStream c p s iv') (CFB.init iv') ops' m')
    (i : Nat) (hi : c.bs ≤ s * (i / s)) :
    (a.length + i < m.length ↔ a'.length + i < m'.length) ∧
      (a.length + i < m.length → m.getD (a.length + i) 0#8 = m'.getD (a'.length + i) 0#8) := by
  obtain ⟨h1, h2⟩ := of_prompt (C126_cfb_decrypt h s hs0 hs p iv hiv) hm
  obtain ⟨g1, g2⟩ := of_prompt (C126_cfb_decrypt h s hs0 hs p iv' hiv') hm'
  rw [hw] at h1 h2
  rw [hw'] at g1 g2
  have z : ∀ x : Bytes, x.length % s = 0 → s * ((x ++ b).length / s) = x.length + s * (b.length / s) := fun x hx => by
    have hq := Nat.div_add_mod x.length s
    rw [List.length_append, show x.length + b.length = s * (x.length / s) + b.length by omega, Nat.mul_add_div hs0, Nat.mul_add]; omega
  rw [z a ha] at h1 h2
  rw [z a' ha'] at g1 g2
  rw [List.take_length_add_append] at h1 g1
  refine ⟨by omega, fun hlt => ?_⟩
  exact C84_cfb_resync h s hs0 hs _ _ iv iv' a a' _ m m' hiv hiv' ha ha' h1 g1 i hi hlt (by omega)

/-- C127, OFB: what is flipped in the ciphertext is flipped in what the stream releases, and nothing else is. -/
theorem C127_ofb (h : Lawful c E D) (iv : Bytes) (hiv : iv.length = c.bs) (ops ops' : List (Bytes × Bool)) (m m' : Bytes)
    (hm : Released (OFB.stream c iv) (OFB.init iv) ops m) (hm' : Released (OFB.stream c iv) (OFB.init iv) ops' m')
    (i : Nat) (hi : i < m.length) (hi' : i < m'.length) :
    m'.getD i 0#8 = m.getD i 0#8 ^^^ (written ops).getD i 0#8 ^^^ (written ops').getD i 0#8 := by
  obtain ⟨h1, h2⟩ := of_prompt (C126_ofb h iv hiv) hm
  obtain ⟨g1, g2⟩ := of_prompt (C126_ofb h iv hiv) hm'
  have q := Nat.mul_div_le (written ops).length c.bs
  have q' := Nat.mul_div_le (written ops').length c.bs
  have := C84_ofb h iv _ _ _ _ hiv h1 g1 i (by rw [List.length_take]; omega) (by rw [List.length_take]; omega)
  rwa [getD_take' _ (by omega), getD_take' _ (by omega)] at this

/-- C127, CTR: the same. -/
theorem C127_ctr (h : Lawful c E D) (k : κ) (v : Nat → Bytes) (hv : ∀ i, cops.value (cops.reset k) i = some (v i) ∧ c.bs ≤ (v i).length)
    (ops ops' : List (Bytes × Bool)) (m m' : Bytes)
    (hm : Released (CTR.stream c cops) (CTR.init cops k) ops m) (hm' : Released (CTR.stream c cops) (CTR.init cops k) ops' m')
    (i : Nat) (hi : i < m.length) (hi' : i < m'.length) :
    m'.getD i 0#8 = m.getD i 0#8 ^^^ (written ops).getD i 0#8 ^^^ (written ops').getD i 0#8 := by
  obtain ⟨h1, h2⟩ := of_prompt (C126_ctr h k v hv) hm
  obtain ⟨g1, g2⟩ := of_prompt (C126_ctr h k v hv) hm'
  have q := Nat.mul_div_le (written ops).length c.bs
  have q' := Nat.mul_div_le (written ops').length c.bs
  have un : ∀ x y, (CTR.encrypt c cops (cops.reset k) x).map Prod.snd = .ok y → ∃ k1, CTR.decrypt c cops (cops.reset k) x = .ok (k1, y) := by
    intro x y hxy
    cases hx : CTR.encrypt c cops (cops.reset k) x with
    | error e => rw [hx] at hxy; cases hxy
    | ok z => rw [hx] at hxy; cases hxy; exact ⟨z.1, hx⟩
  obtain ⟨k1, e1⟩ := un _ _ h1
  obtain ⟨k2, e2⟩ := un _ _ g1
  have := C84_ctr h (cops.reset k) (fun i => ⟨v i, hv i⟩) _ _ _ _ _ _ e1 e2 i (by rw [List.length_take]; omega) (by rw [List.length_take]; omega)
  rwa [getD_take' _ (by omega), getD_take' _ (by omega)] at this

/-! A CBC stream whose first block is lost on the way: from the second common block on the same bytes are released. -/

example : Released (CBC.decStream (Toy.cipher 2) .empty [5, 6]) (CBC.init [5, 6]) [([5, 5, 2], true), ([7, 1, 1, 4], false)] [1, 2, 3, 4, 2, 7] ∧
    Released (CBC.decStream (Toy.cipher 2) .empty [5, 6]) (CBC.init [5, 6]) [([2], true), ([7, 1, 1, 4], true)] [3, 7, 2, 7] := by
  exact ⟨⟨[1, 2], ⟨[4], [3, 4, 2, 7], [1, 1]⟩, by decide, by decide⟩, ⟨[3, 7, 2, 7], ⟨[4], [], [1, 1]⟩, by decide, by decide⟩⟩

end Verif.Props
