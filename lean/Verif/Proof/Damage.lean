import Verif.Proof.ECB
import Verif.Proof.CBC
import Verif.Proof.CFB
import Verif.Proof.OFB
import Verif.Proof.CTR

/-! Helper lemmas for C84: single bytes and blocks of what the modes deliver. -/

namespace Verif.Model
open Spec

variable {c : BlockCipher} {E D : Bytes → Bytes}

/-- Unpadding only cuts off at the end. -/
theorem unpad_prefix {p : Padding} {d m : Bytes} (h : p.unpad d = .ok m) : m <+: d := by
  cases p with
  | empty => simp only [Padding.unpad, Padding.unpadding] at h; cases h; exact List.prefix_rfl
  | default bs =>
    simp only [Padding.unpad, Padding.unpadding] at h
    cases hs : unpadScan d.reverse 0 with
    | none => rw [hs] at h; cases h
    | some k => rw [hs] at h; cases h; exact List.take_prefix _ _

theorem getD_prefix {m d : Bytes} (h : m <+: d) {i : Nat} (hi : i < m.length) : m.getD i 0#8 = d.getD i 0#8 := by
  obtain ⟨t, rfl⟩ := h
  rw [List.getD_eq_getElem?_getD, List.getD_eq_getElem?_getD, List.getElem?_append_left hi]

theorem flatten_getElem? {n : Nat} {bs : List Bytes} (hb : IsBlocks n bs) {r : Nat} (hr : r < n) (j : Nat) :
    bs.flatten[n * j + r]? = (bs[j]?).bind fun b => b[r]? := by
  induction bs generalizing j with
  | nil => simp
  | cons b bs ih =>
    have hl := hb.head
    cases j with
    | zero => rw [List.flatten_cons, List.getElem?_append_left (by omega)]; simp
    | succ j =>
      rw [List.flatten_cons, List.getElem?_append_right (by rw [Nat.mul_add]; omega),
        show n * (j + 1) + r - b.length = n * j + r by rw [Nat.mul_add]; omega, ih hb.tail]
      simp

theorem flatten_block {n : Nat} {bs : List Bytes} (hb : IsBlocks n bs) (j : Nat) :
    (bs.flatten.drop (n * j)).take n = bs.getD j [] := by
  induction bs generalizing j with
  | nil => simp
  | cons b bs ih =>
    have hl := hb.head
    cases j with
    | zero =>
      rw [List.flatten_cons, Nat.mul_zero, List.drop_zero, List.take_append, List.take_of_length_le (by omega),
        show n - b.length = 0 by omega]
      simp
    | succ j =>
      rw [List.flatten_cons, List.drop_append, List.drop_eq_nil_of_le (by rw [Nat.mul_add]; omega),
        show n * (j + 1) - b.length = n * j by rw [Nat.mul_add]; omega, List.nil_append, ih hb.tail]
      simp

theorem xor_getElem? (a b : Bytes) (r : Nat) : (xorBytes a b)[r]? = (a[r]?).bind fun x => (b[r]?).map fun y => x ^^^ y := by
  simp only [xorBytes, List.getElem?_zipWith]
  cases a[r]? <;> cases b[r]? <;> rfl

theorem cbcDec_getElem? (D : Bytes → Bytes) (iv : Bytes) (bs : List Bytes) (j : Nat) :
    (cbcDec D iv bs)[j]? = (bs[j]?).map fun b => xorBytes (D b) ((iv :: bs).getD j []) := by
  induction bs generalizing iv j with
  | nil => simp [cbcDec]
  | cons b bs ih =>
    cases j with
    | zero => simp [cbcDec]
    | succ j => simp only [cbcDec, List.getElem?_cons_succ, ih, List.getD_cons_succ]

theorem length_cbcDec (D : Bytes → Bytes) (iv : Bytes) (bs : List Bytes) : (cbcDec D iv bs).length = bs.length := by
  induction bs generalizing iv with
  | nil => rfl
  | cons b bs ih => simp [cbcDec, ih]

theorem length_cfbDec (E : Bytes → Bytes) (s : Nat) (iv : Bytes) (bs : List Bytes) : (cfbDec E s iv bs).length = bs.length := by
  induction bs generalizing iv with
  | nil => rfl
  | cons b bs ih => simp [cfbDec, ih]

theorem cfbDec_getElem? (E : Bytes → Bytes) {s n : Nat} (hs : s ≤ n) {iv : Bytes} (hiv : iv.length = n) {bs : List Bytes} (hb : IsBlocks s bs) (j : Nat) :
    (cfbDec E s iv bs)[j]? = (bs[j]?).map fun b => xorBytes b ((E (((iv ++ bs.flatten).drop (s * j)).take n)).take s) := by
  induction bs generalizing iv j with
  | nil => simp [cfbDec]
  | cons b bs ih =>
    have hl := hb.head
    cases j with
    | zero =>
      simp only [cfbDec, List.getElem?_cons_zero, Option.map_some, Nat.mul_zero, List.drop_zero]
      rw [List.take_append (l₁ := iv), List.take_of_length_le (l := iv) (by omega), show n - iv.length = 0 by omega]
      simp
    | succ j =>
      simp only [cfbDec, List.getElem?_cons_succ]
      rw [ih (by rw [List.length_append, List.length_drop]; omega) hb.tail, List.flatten_cons, Nat.mul_add, Nat.mul_one, Nat.add_comm (s * j) s,
        ← List.drop_drop, List.drop_append (l₁ := iv), show s - iv.length = 0 by omega, List.drop_zero, List.append_assoc]

/-- A byte of what ECB decryption delivers. -/
theorem ECB.decrypt_byte (h : Lawful c E D) {p : Padding} {ct m : Bytes} (hm : decrypt c p ct = .ok m) {j r : Nat} (hr : r < c.bs)
    (hj : c.bs * j + r < m.length) : m.getD (c.bs * j + r) 0#8 = (D ((ct.drop (c.bs * j)).take c.bs)).getD r 0#8 := by
  have hmod : ct.length % c.bs = 0 := by
    unfold decrypt at hm; split at hm
    · cases hm
    · rename_i h; exact Classical.not_not.1 h
  have hb := blocksOf_isBlocks c.bs ct
  have hf := flatten_blocksOf h.pos hmod
  rw [← hf] at hm
  rw [decrypt_eq h hb] at hm
  have hp := unpad_prefix hm
  have hlen := hp.length_le
  have hbd : IsBlocks c.bs (ecb D (blocksOf c.bs ct)) := ecb_isBlocks (E := D) (D := E) (c := ⟨c.blockSize, c.decrypt, c.encrypt⟩)
    ⟨h.pos, h.dec, h.enc, h.lenD, h.lenE, h.ED, h.DE, h.decErr, h.encErr⟩ hb
  rw [getD_prefix hp hj, List.getD_eq_getElem?_getD, flatten_getElem? hbd hr]
  have hjl : j < (blocksOf c.bs ct).length := by
    rw [hbd.length_flatten] at hlen
    simp only [ecb, List.length_map] at hlen
    refine Nat.lt_of_mul_lt_mul_left (a := c.bs) (by omega)
  conv => rhs; rw [← hf]
  rw [flatten_block hb]
  simp only [ecb, List.getElem?_map, List.getD_eq_getElem?_getD, List.getElem?_eq_getElem hjl, Option.map_some, Option.bind_some, Option.getD_some]

/-- A byte of what CBC decryption delivers. -/
theorem CBC.decrypt_byte (h : Lawful c E D) {p : Padding} {iv ct m : Bytes} (hiv : iv.length = c.bs) (hm : decrypt c p iv ct = .ok m) {j r : Nat}
    (hr : r < c.bs) (hj : c.bs * j + r < m.length) :
    m.getD (c.bs * j + r) 0#8 = (D ((ct.drop (c.bs * j)).take c.bs)).getD r 0#8 ^^^ (iv ++ ct).getD (c.bs * j + r) 0#8 := by
  have hmod : ct.length % c.bs = 0 := by
    unfold decrypt at hm; split at hm
    · cases hm
    · rename_i h; exact Classical.not_not.1 h
  have hb := blocksOf_isBlocks c.bs ct
  have hf := flatten_blocksOf h.pos hmod
  rw [← hf] at hm
  rw [decrypt_eq h hiv hb] at hm
  have hp := unpad_prefix hm
  have hlen := hp.length_le
  have hiv' : IsBlocks c.bs (iv :: blocksOf c.bs ct) := .cons hiv hb
  have hbd : IsBlocks c.bs (cbcDec D iv (blocksOf c.bs ct)) := by
    intro x hx
    obtain ⟨k, hk, rfl⟩ := List.getElem_of_mem hx
    have h1 := cbcDec_getElem? D iv (blocksOf c.bs ct) k
    rw [List.getElem?_eq_getElem hk] at h1
    cases h2 : (blocksOf c.bs ct)[k]? with
    | none => rw [h2] at h1; simp at h1
    | some b =>
      rw [h2] at h1
      simp only [Option.map_some] at h1
      injection h1 with h1
      have hk' : k < (iv :: blocksOf c.bs ct).length := by
        have := (List.getElem?_eq_some_iff.1 h2).1; simp only [List.length_cons]; omega
      rw [h1, length_xorBytes, h.lenD _ (hb _ (List.mem_of_getElem? h2)), List.getD_eq_getElem?_getD, List.getElem?_eq_getElem hk',
        Option.getD_some, hiv' _ (List.getElem_mem hk')]
      omega
  have hlc := length_cbcDec D iv (blocksOf c.bs ct)
  rw [getD_prefix hp hj, List.getD_eq_getElem?_getD, flatten_getElem? hbd hr, cbcDec_getElem?]
  have hjl : j < (blocksOf c.bs ct).length := by
    rw [hbd.length_flatten, hlc] at hlen
    refine Nat.lt_of_mul_lt_mul_left (a := c.bs) (by omega)
  conv => rhs; rw [← hf]
  rw [flatten_block hb, show iv ++ (blocksOf c.bs ct).flatten = (iv :: blocksOf c.bs ct).flatten by simp,
    List.getD_eq_getElem?_getD (l := (iv :: blocksOf c.bs ct).flatten), flatten_getElem? hiv' hr]
  have hjl' : j < (iv :: blocksOf c.bs ct).length := by simp only [List.length_cons]; omega
  have e1 := h.lenD _ (hb _ (List.getElem_mem hjl))
  have e2 := hiv' _ (List.getElem_mem hjl')
  simp only [List.getD_eq_getElem?_getD, List.getElem?_eq_getElem hjl, List.getElem?_eq_getElem hjl', Option.map_some, Option.bind_some, Option.getD_some,
    xor_getElem?]
  rw [List.getElem?_eq_getElem (by omega : r < _), List.getElem?_eq_getElem (by omega : r < ((iv :: blocksOf c.bs ct)[j]).length)]
  simp

/-- A byte of what CFB decryption delivers. -/
theorem CFB.decrypt_byte (h : Lawful c E D) {s : Nat} (hs0 : 0 < s) (hs : s ≤ c.bs) {p : Padding} {iv ct m : Bytes} (hiv : iv.length = c.bs)
    (hm : decrypt c p s iv ct = .ok m) {j r : Nat} (hr : r < s) (hj : s * j + r < m.length) :
    m.getD (s * j + r) 0#8 = (E (((iv ++ ct).drop (s * j)).take c.bs)).getD r 0#8 ^^^ ct.getD (s * j + r) 0#8 := by
  have hmod : ct.length % s = 0 := by
    unfold decrypt at hm; split at hm
    · cases hm
    · rename_i h; exact Classical.not_not.1 h
  have hb := blocksOf_isBlocks s ct
  have hf := flatten_blocksOf hs0 hmod
  rw [← hf] at hm
  rw [decrypt_eq h hs0 hs hiv hb] at hm
  have hp := unpad_prefix hm
  have hlen := hp.length_le
  have hreg : ∀ k, k < (blocksOf s ct).length → (((iv ++ (blocksOf s ct).flatten).drop (s * k)).take c.bs).length = c.bs := by
    intro k hk
    have : s * (k + 1) ≤ s * (blocksOf s ct).length := Nat.mul_le_mul_left _ hk
    rw [Nat.mul_add] at this
    rw [List.length_take, List.length_drop, List.length_append, hb.length_flatten]
    omega
  have hbd : IsBlocks s (cfbDec E s iv (blocksOf s ct)) := by
    intro x hx
    obtain ⟨k, hk, rfl⟩ := List.getElem_of_mem hx
    have h1 := cfbDec_getElem? E hs hiv hb k
    have hk' := hk
    rw [length_cfbDec] at hk'
    rw [List.getElem?_eq_getElem hk, List.getElem?_eq_getElem hk', Option.map_some] at h1
    injection h1 with h1
    rw [h1, length_xorBytes, hb _ (List.getElem_mem hk'), List.length_take, h.lenE _ (hreg k hk')]
    omega
  rw [getD_prefix hp hj, List.getD_eq_getElem?_getD, flatten_getElem? hbd hr, cfbDec_getElem? E hs hiv hb]
  have hjl : j < (blocksOf s ct).length := by
    rw [hbd.length_flatten, length_cfbDec] at hlen
    refine Nat.lt_of_mul_lt_mul_left (a := s) (by omega)
  conv => rhs; rw [← hf]
  rw [List.getD_eq_getElem?_getD (l := (blocksOf s ct).flatten), flatten_getElem? hb hr]
  have e1 := h.lenE _ (hreg j hjl)
  have e2 := hb _ (List.getElem_mem hjl)
  simp only [List.getD_eq_getElem?_getD, List.getElem?_eq_getElem hjl, Option.map_some, Option.bind_some, xor_getElem?]
  rw [List.getElem?_eq_getElem (by omega : r < ((blocksOf s ct)[j]).length), List.getElem?_take, if_pos hr,
    List.getElem?_eq_getElem (by omega : r < _)]
  simp [BitVec.xor_comm]

/-- A byte of what a synchronous stream cipher delivers. -/
theorem streamXor_byte (block : Nat → Bytes) {n : Nat} (hn : 0 < n) (h0 : ∀ i, (block i).length = n) (m : Bytes) {i : Nat} (hi : i < m.length) :
    (streamXor block n m).getD i 0#8 = (block (i / n)).getD (i % n) 0#8 ^^^ m.getD i 0#8 := by
  have hk : (keystream block n m.length)[i]? = (block (i / n))[i % n]? := by
    have hb : IsBlocks n ((List.range ((m.length + n - 1) / n)).map block) := by
      intro x hx
      obtain ⟨k, -, rfl⟩ := List.mem_map.1 hx
      exact h0 k
    have hlt : i / n < (m.length + n - 1) / n := by
      rw [Nat.div_lt_iff_lt_mul hn]
      have := Nat.div_add_mod (m.length + n - 1) n
      have := Nat.mod_lt (m.length + n - 1) hn
      rw [Nat.mul_comm]; omega
    have := flatten_getElem? hb (Nat.mod_lt i hn) (i / n)
    rw [Nat.div_add_mod] at this
    rw [keystream, this]
    simp [hlt]
  rw [List.getD_eq_getElem?_getD, streamXor, xor_getElem?, hk, List.getElem?_eq_getElem hi,
    List.getElem?_eq_getElem (by rw [h0]; exact Nat.mod_lt _ hn : i % n < (block (i / n)).length), Option.bind_some, Option.map_some,
    Option.getD_some, List.getD_eq_getElem?_getD, List.getD_eq_getElem?_getD, List.getElem?_eq_getElem hi,
    List.getElem?_eq_getElem (by rw [h0]; exact Nat.mod_lt _ hn : i % n < (block (i / n)).length)]
  simp [BitVec.xor_comm]

end Verif.Model
