import Verif.Proof.ZUC

/-! Helper lemmas: 128-EEA3 with leftover keystream bytes -/

namespace Verif.Model.ZUCCipher
open Verif

/-- Keystream bytes `pos … pos + n - 1`. -/
def ks (key iv : Bytes) (pos n : Nat) : Bytes := (List.range n).map fun i => Spec.ZUC.byte key iv (pos + i)

variable {key iv : Bytes}

@[simp] theorem length_ks (pos n : Nat) : (ks key iv pos n).length = n := by simp [ks]

theorem ks_add (pos a b : Nat) : ks key iv pos (a + b) = ks key iv pos a ++ ks key iv (pos + a) b := by
  unfold ks
  rw [List.range_add, List.map_append, List.map_map]
  have : ∀ i ∈ List.range b, ((fun i => Spec.ZUC.byte key iv (pos + i)) ∘ fun x => a + x) i = Spec.ZUC.byte key iv (pos + a + i) := by
    intro i _
    rw [Function.comp, Nat.add_assoc]
  rw [List.map_congr_left this]

theorem ks_take (pos : Nat) {a n : Nat} (h : a ≤ n) : (ks key iv pos n).take a = ks key iv pos a := by
  obtain ⟨b, rfl⟩ := Nat.exists_eq_add_of_le h
  rw [ks_add, List.take_append_of_le_length (by simp), List.take_of_length_le (by simp)]

theorem ks_drop (pos : Nat) {a n : Nat} (h : a ≤ n) : (ks key iv pos n).drop a = ks key iv (pos + a) (n - a) := by
  obtain ⟨b, rfl⟩ := Nat.exists_eq_add_of_le h
  rw [ks_add, List.drop_append_of_le_length (by simp), List.drop_of_length_le (by simp), List.nil_append]
  congr 1; omega

theorem be32_word (n : Nat) : be32 (Spec.ZUC.word key iv n) = ks key iv (4 * n) 4 := by
  have e : ∀ i < 4, (4 * n + i) / 4 = n ∧ (4 * n + i) % 4 = i := by intro i hi; omega
  simp only [be32_eq, ks, List.range, List.range.loop, List.map_cons, List.map_nil, Spec.ZUC.byte,
    (e 0 (by omega)).1, (e 0 (by omega)).2, (e 1 (by omega)).1, (e 1 (by omega)).2, (e 2 (by omega)).1, (e 2 (by omega)).2,
    (e 3 (by omega)).1, (e 3 (by omega)).2]

theorem xorFrom_eq (pos : Nat) (m : Bytes) : Spec.ZUC.xorFrom key iv pos m = xorBytes (ks key iv pos m.length) m := by
  unfold Spec.ZUC.xorFrom xorBytes ks
  apply List.ext_getElem
  · simp
  · intro i h1 h2
    simp at h1
    simp only [List.getElem_map, List.getElem_range, List.getElem_zipWith, List.getD_eq_getElem _ _ h1]
    exact BitVec.xor_comm _ _

theorem xorBytes_append {a b c d : Bytes} (h : a.length = b.length) : xorBytes (a ++ c) (b ++ d) = xorBytes a b ++ xorBytes c d := by
  unfold xorBytes; exact List.zipWith_append h

theorem xorBytes_takeR : ∀ a m : Bytes, xorBytes a m = xorBytes a (m.take a.length)
  | [], _ => by simp [xorBytes]
  | _ :: _, [] => by simp [xorBytes]
  | x :: a, y :: m => by
    have := xorBytes_takeR a m
    simp only [xorBytes, List.zipWith_cons_cons, List.length_cons, List.take_succ_cons] at *
    rw [this]

theorem xorBytes_takeL : ∀ a m : Bytes, xorBytes a m = xorBytes (a.take m.length) m
  | [], _ => by simp [xorBytes]
  | _ :: _, [] => by simp [xorBytes]
  | x :: a, y :: m => by
    have := xorBytes_takeL a m
    simp only [xorBytes, List.zipWith_cons_cons, List.length_cons, List.take_succ_cons] at *
    rw [this]

/-- `w = ⌈pos/4⌉` words were drawn, the bytes beyond `pos` are kept. -/
structure At (s : State) (key iv : Bytes) (pos : Nat) : Prop where
  hck : s.ck = key
  hiv : s.iv = iv
  left : s.key = ks key iv pos (4 * ((pos + 3) / 4) - pos)
  zuc : ZUC.R s.zuc (Spec.ZUC.stateAt key iv ((pos + 3) / 4))

theorem wordXor_eq : ∀ (k m : Bytes), k.length ≤ m.length → wordXor k m = .ok (xorBytes k (m.take k.length), m.drop k.length)
  | [], m, _ => by simp [wordXor, xorBytes]
  | k :: k', [], h => by simp at h
  | k :: k', x :: m, h => by
    rw [wordXor, wordXor_eq k' m (by simpa using h)]
    simp [bind, Except.bind, xorBytes]

theorem wholeWords_eq : ∀ (n : Nat) (z : ZUC.State) (w : Nat) (m : Bytes), ZUC.R z (Spec.ZUC.stateAt key iv w) → 4 * n ≤ m.length →
    ∃ z', wholeWords n z m = .ok (xorBytes (ks key iv (4 * w) (4 * n)) (m.take (4 * n)), m.drop (4 * n), z') ∧
      ZUC.R z' (Spec.ZUC.stateAt key iv (w + n))
  | 0, z, w, m, h, _ => ⟨z, by simp [wholeWords, xorBytes], h⟩
  | n + 1, z, w, m, h, hm => by
    obtain ⟨h1, h2⟩ := h.next
    obtain ⟨z', e, h3⟩ := wholeWords_eq n (ZUC.zuc z).2 (w + 1) (m.drop 4) h2 (by rw [List.length_drop]; omega)
    refine ⟨z', ?_, by rw [show w + (n + 1) = w + 1 + n by omega]; exact h3⟩
    rw [wholeWords]
    simp only [h1, be32_word]
    rw [wordXor_eq _ _ (by simp; omega)]
    simp only [bind, Except.bind, length_ks, e]
    rw [show 4 * (n + 1) = 4 + 4 * n by omega, ks_add, List.take_add, xorBytes_append (by simp; omega), List.drop_drop,
      show 4 * w + 4 = 4 * (w + 1) by omega]

theorem lastWord_eq : ∀ (k m : Bytes), m.length ≤ k.length → lastWord k m = (xorBytes (k.take m.length) m, k.drop m.length)
  | [], [], _ => by simp [lastWord, xorBytes]
  | [], x :: m, h => by simp at h
  | k :: k', [], _ => by simp [lastWord, xorBytes]
  | k :: k', x :: m, h => by
    rw [lastWord, lastWord_eq k' m (by simpa using h)]
    simp [xorBytes]

theorem encrypt_at {s : State} {pos : Nat} (h : At s key iv pos) (m : Bytes) :
    ∃ s', encrypt s m = .ok (Spec.ZUC.xorFrom key iv pos m, if m.length ≤ 4 * ((pos + 3) / 4) - pos then 0 else m.length, s') ∧
      At s' key iv (pos + m.length) := by
  have hk := h.left
  have hz := h.zuc
  generalize hw : (pos + 3) / 4 = w at *
  have hwp : pos ≤ 4 * w ∧ 4 * w ≤ pos + 3 := by omega
  unfold encrypt
  simp only [hk, length_ks, xorFrom_eq]
  by_cases hm : m.length ≤ 4 * w - pos
  · rw [show Nat.min (4 * w - pos) m.length = m.length from Nat.min_eq_right hm]
    rw [if_pos (by simp), if_pos hm]
    refine ⟨_, by rw [← ks_take pos hm, ← xorBytes_takeL], ?_⟩
    · have e : (pos + m.length + 3) / 4 = w := by omega
      refine ⟨h.hck, h.hiv, ?_, by rw [e]; exact hz⟩
      simp only
      rw [ks_drop _ hm, e, Nat.sub_sub]
  · have hmin : Nat.min (4 * w - pos) m.length = 4 * w - pos := Nat.min_eq_left (by omega)
    rw [hmin, if_neg (by simp; omega), if_neg hm]
    have hlen : (m.drop (4 * w - pos)).length = m.length - (4 * w - pos) := by simp
    simp only [hlen]
    generalize hk0 : 4 * w - pos = k0 at *
    generalize hn : (m.length - k0 + 3) / 4 - 1 = n
    have hn1 : 4 * n < m.length - k0 ∧ m.length - k0 ≤ 4 * n + 4 := by omega
    obtain ⟨z', e1, h1⟩ := wholeWords_eq n s.zuc w (m.drop k0) hz (by rw [hlen]; omega)
    obtain ⟨h2, h3⟩ := h1.next
    rw [e1]
    simp only [bind, Except.bind, h2, be32_word]
    rw [lastWord_eq _ _ (by simp; omega)]
    simp only [List.drop_drop]
    have hl2 : (m.drop (k0 + 4 * n)).length = m.length - k0 - 4 * n := by simp; omega
    have e2 : xorBytes (ks key iv pos k0) m ++ xorBytes (ks key iv (4 * w) (4 * n)) ((m.drop k0).take (4 * n)) ++
        xorBytes ((ks key iv (4 * (w + n)) 4).take (m.drop (k0 + 4 * n)).length) (m.drop (k0 + 4 * n)) =
        xorBytes (ks key iv pos m.length) m := by
      rw [hl2, ks_take _ (by omega)]
      have em : m = m.take k0 ++ ((m.drop k0).take (4 * n) ++ m.drop (k0 + 4 * n)) := by
        rw [← List.drop_drop, List.take_append_drop, List.take_append_drop]
      have ek : ks key iv pos m.length = ks key iv pos k0 ++ (ks key iv (4 * w) (4 * n) ++ ks key iv (4 * (w + n)) (m.length - k0 - 4 * n)) := by
        rw [show 4 * (w + n) = 4 * w + 4 * n by omega, ← ks_add, show 4 * w = pos + k0 by omega, ← ks_add]
        congr 1; omega
      have e3 : xorBytes (ks key iv pos k0) m = xorBytes (ks key iv pos k0) (m.take k0) := by
        rw [xorBytes_takeR, length_ks]
      rw [ek, e3]
      conv => rhs; rw [em]
      rw [xorBytes_append (by simp; omega), xorBytes_append (by simp; omega), List.append_assoc, ← em]
    have hlx : (xorBytes (ks key iv pos m.length) m).length = m.length := by simp [xorBytes]
    rw [e2, hlx]
    refine ⟨_, rfl, ?_⟩
    have e4 : (pos + m.length + 3) / 4 = w + n + 1 := by omega
    refine ⟨h.hck, h.hiv, ?_, by rw [e4]; exact h3⟩
    simp only
    rw [ks_drop _ (by omega), e4, ks_drop _ (by omega), hl2]
    rw [show k0 - k0 = 0 by omega]
    simp only [ks, List.range_zero, List.map_nil, List.nil_append]
    rw [show 4 - (m.length - k0 - 4 * n) = 4 * (w + n + 1) - (pos + m.length) by omega,
      show 4 * (w + n) + (m.length - k0 - 4 * n) = pos + m.length by omega]

theorem length_mkIv (count : BitVec 32) (bearer : Byte) (direction : Bool) : (mkIv count bearer direction).length = 16 := by
  simp [mkIv, List.range, List.range.loop]

theorem reset_at {s : State} {pos : Nat} (h : At s key iv pos) (hk : key.length = 16) (hv : iv.length = 16) :
    ∃ s', reset s = .ok s' ∧ At s' key iv 0 := by
  obtain ⟨z, e, hz⟩ := ZUC.setSlice_R h.zuc.len hk hv
  refine ⟨_, by rw [reset, h.hck, h.hiv, e], ?_⟩
  exact ⟨rfl, rfl, by simp [ks], hz⟩

set_option maxRecDepth 10000 in
theorem mkIv_eq (count : BitVec 32) (bearer : Byte) (direction : Bool) :
    mkIv count bearer direction = Spec.ZUC.eea3Iv count (bearer.setWidth 5) (BitVec.ofBool direction) := by
  have e : (bearer <<< 3) ||| ((if direction then 1#8 else 0#8) <<< 2) = (bearer.setWidth 5 ++ BitVec.ofBool direction ++ 0#2 : BitVec 8) := by
    have := forall_byte (p := fun b => decide (∀ d : Bool, (b <<< 3) ||| ((if d then 1#8 else 0#8) <<< 2) = (b.setWidth 5 ++ BitVec.ofBool d ++ 0#2 : BitVec 8)))
      (by decide +kernel) bearer
    simp only [decide_eq_true_eq] at this
    exact this direction
  unfold mkIv Spec.ZUC.eea3Iv
  rw [e]
  rfl

theorem fromSlice_at (count : BitVec 32) (bearer : Byte) (direction : Bool) {ck : Bytes} (hk : ck.length = 16) :
    ∃ s, fromSlice count bearer direction ck = .ok s ∧ At s ck (Spec.ZUC.eea3Iv count (bearer.setWidth 5) (BitVec.ofBool direction)) 0 := by
  obtain ⟨z, e, hz⟩ := ZUC.fromSlice_R hk (length_mkIv count bearer direction)
  rw [← mkIv_eq]
  refine ⟨_, by rw [fromSlice, if_neg (by omega)]; simp only [bind, Except.bind, e]; rfl, ?_⟩
  exact ⟨rfl, rfl, by simp [ks], hz⟩

end Verif.Model.ZUCCipher
