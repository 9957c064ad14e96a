import Verif.Proof.CMAC
import Verif.Proof.Loops
import Verif.Spec.ZUC

/-! Helper lemmas for C85 -/

namespace Verif.Model.CMAC
open Spec.CMAC

variable {c : BlockCipher} {E D : Bytes → Bytes}

theorem xor_cancel_right {a a' b : Bytes} (h : a.length = b.length) (h' : a'.length = b.length) (e : xorBytes a b = xorBytes a' b) : a = a' := by
  rw [← Verif.xorBytes_cancel a b (by omega), e, Verif.xorBytes_cancel a' b (by omega)]

theorem xor_cancel_left {a b b' : Bytes} (h : a.length = b.length) (h' : a.length = b'.length) (e : xorBytes a b = xorBytes a b') : b = b' := by
  rw [xorBytes_comm a b, xorBytes_comm a b'] at e
  exact xor_cancel_right h.symm h'.symm e

theorem enc_inj (L : Lawful c E D) {a a' : Bytes} (h : a.length = c.bs) (h' : a'.length = c.bs) (e : E a = E a') : a = a' := by
  rw [← L.DE a h, e, L.DE a' h']

/-- Padding of an incomplete last block is injective. -/
theorem pad_inj {b : Nat} {x y : Bytes}
    (e : x ++ [0x80#8] ++ List.replicate (b - x.length - 1) 0#8 = y ++ [0x80#8] ++ List.replicate (b - y.length - 1) 0#8) : x = y := by
  have key : ∀ {x y : Bytes} (u v : Nat), x ++ 0x80#8 :: List.replicate u 0#8 = y ++ 0x80#8 :: List.replicate v 0#8 → x = y := by
    intro x
    induction x with
    | nil =>
      intro y u v e
      cases y with
      | nil => rfl
      | cons a y =>
        simp only [List.nil_append, List.cons_append, List.cons.injEq] at e
        exfalso
        have : (0x80#8 : Byte) ∈ List.replicate u 0#8 := by rw [e.2]; simp
        exact absurd (List.eq_of_mem_replicate this) (by decide)
    | cons a x ih =>
      intro y u v e
      cases y with
      | nil =>
        simp only [List.nil_append, List.cons_append, List.cons.injEq] at e
        exfalso
        have : (0x80#8 : Byte) ∈ List.replicate v 0#8 := by rw [← e.2]; simp
        exact absurd (List.eq_of_mem_replicate this) (by decide)
      | cons a' y =>
        simp only [List.cons_append, List.cons.injEq] at e
        rw [e.1, ih u v e.2]
  simp only [List.append_assoc, List.singleton_append] at e
  exact key _ _ e

theorem length_block_le (b : Nat) (m : Bytes) (i : Nat) : (block b m i).length ≤ b := by
  rw [block, List.length_take]; omega

theorem length_lastBlock {b rb : Nat} (m : Bytes) : (lastBlock E b rb m).length = b := by
  unfold lastBlock
  have h := length_block_le b m (blocks b m - 1)
  simp only
  split
  · rename_i hx
    rw [xorBytes_length, hx, k1, double_length]; omega
  · rw [xorBytes_length, k2, double_length]
    simp only [List.length_append, List.length_replicate, List.length_singleton]
    omega

/-- The masked last block determines the last block, when it is known whether that is complete. -/
theorem lastBlock_inj {b rb : Nat} {x y : Bytes}
    (hc : (block b x (blocks b x - 1)).length = b ↔ (block b y (blocks b y - 1)).length = b)
    (e : lastBlock E b rb x = lastBlock E b rb y) : block b x (blocks b x - 1) = block b y (blocks b y - 1) := by
  unfold lastBlock at e
  have hx := length_block_le b x (blocks b x - 1)
  have hy := length_block_le b y (blocks b y - 1)
  generalize block b x (blocks b x - 1) = u at *
  generalize block b y (blocks b y - 1) = v at *
  by_cases h : u.length = b
  · simp only [if_pos h, if_pos (hc.1 h)] at e
    exact xor_cancel_left (by rw [k1, double_length, h]) (by rw [k1, double_length, hc.1 h]) e
  · have h' : ¬ v.length = b := fun h' => h (hc.2 h')
    simp only [if_neg h, if_neg h'] at e
    refine pad_inj (b := b) (xor_cancel_left ?_ ?_ e) <;> rw [k2, double_length] <;>
      simp only [List.length_append, List.length_replicate, List.length_singleton] <;> omega

theorem blocks_mul_le {b : Nat} (hb : 0 < b) (m : Bytes) {i : Nat} (h : i ≤ blocks b m - 1) : i * b ≤ m.length := by
  rcases mid_bounds b hb m with h1 | h1
  · have : i * b ≤ (blocks b m - 1) * b := Nat.mul_le_mul_right _ h
    omega
  · have : i = 0 := by omega
    subst this; simp

theorem mac_one_block (L : Lawful c E D) (rb : Nat) {x y : Bytes} (hn : blocks c.bs x = blocks c.bs y)
    (hc : (block c.bs x (blocks c.bs x - 1)).length = c.bs ↔ (block c.bs y (blocks c.bs y - 1)).length = c.bs)
    (k : Nat) (hk : k < blocks c.bs x) (hs : ∀ i, i < blocks c.bs x → i ≠ k → block c.bs x i = block c.bs y i) (hd : block c.bs x k ≠ block c.bs y k) :
    mac E c.bs rb x ≠ mac E c.bs rb y := by
  intro e
  have hbx : ∀ i, i ≤ blocks c.bs x - 1 → (chain E c.bs x i).length = c.bs := fun i hi => chain_length L x i (blocks_mul_le L.pos x hi)
  have hby : ∀ i, i ≤ blocks c.bs x - 1 → (chain E c.bs y i).length = c.bs := fun i hi => chain_length L y i (blocks_mul_le L.pos y (by omega))
  have hfull : ∀ (m : Bytes) i, i + 1 ≤ blocks c.bs m - 1 → (block c.bs m i).length = c.bs := by
    intro m i hi
    have := blocks_mul_le L.pos m hi
    rw [Nat.succ_mul] at this
    rw [block, List.length_take, List.length_drop]; omega
  have hbefore : ∀ i, i ≤ k → i ≤ blocks c.bs x - 1 → chain E c.bs x i = chain E c.bs y i := by
    intro i
    induction i with
    | zero => intro _ _; rfl
    | succ i ih => intro h1 h2; rw [chain, chain, ih (by omega) (by omega), hs i (by omega) (by omega)]
  have hafter : ∀ i, k < i → i ≤ blocks c.bs x - 1 → chain E c.bs x i ≠ chain E c.bs y i := by
    intro i
    induction i with
    | zero => intro h; omega
    | succ i ih =>
      intro h1 h2 h3
      rw [chain, chain] at h3
      have hlx := hfull x i h2
      have hly := hfull y i (by omega)
      have h4 := enc_inj L (by rw [xorBytes_length, hbx i (by omega), hlx]; omega) (by rw [xorBytes_length, hby i (by omega), hly]; omega) h3
      rcases Nat.lt_or_ge k i with h5 | h5
      · rw [hs i (by omega) (by omega)] at h4
        exact ih h5 (by omega) (xor_cancel_right (by rw [hbx i (by omega), hly]) (by rw [hby i (by omega), hly]) h4)
      · have : i = k := by omega
        subst this
        rw [hbefore i (by omega) (by omega)] at h4
        exact hd (xor_cancel_left (by rw [hby i (by omega), hlx]) (by rw [hby i (by omega), hly]) h4)
  unfold mac at e
  have h4 := enc_inj L (by rw [xorBytes_length, hbx _ (by omega), length_lastBlock]; omega)
    (by rw [xorBytes_length, hby _ (by omega), length_lastBlock]; omega) e
  rw [← hn] at h4
  by_cases hlast : k = blocks c.bs x - 1
  · rw [hbefore _ (by omega) (by omega)] at h4
    have h5 := xor_cancel_left (by rw [hby _ (by omega), length_lastBlock]) (by rw [hby _ (by omega), length_lastBlock]) h4
    have h6 := lastBlock_inj hc h5
    rw [← hn, ← hlast] at h6
    exact hd h6
  · have h5 : lastBlock E c.bs rb x = lastBlock E c.bs rb y := by
      unfold lastBlock
      rw [← hn, hs _ (by omega) (by omega)]
    rw [h5] at h4
    exact hafter _ (by omega) (by omega) (xor_cancel_right (by rw [hbx _ (by omega), length_lastBlock]) (by rw [hby _ (by omega), length_lastBlock]) h4)

end Verif.Model.CMAC

namespace Verif.Spec.ZUC

theorem msgBit_xor {a b : Bytes} (h : a.length = b.length) (i : Nat) : msgBit (xorBytes a b) i = (msgBit a i ^^ msgBit b i) := by
  unfold msgBit
  have : (xorBytes a b).getD (i / 8) 0#8 = a.getD (i / 8) 0#8 ^^^ b.getD (i / 8) 0#8 := by
    simp only [List.getD_eq_getElem?_getD, xorBytes, List.getElem?_zipWith]
    by_cases hi : i / 8 < a.length
    · rw [List.getElem?_eq_getElem hi, List.getElem?_eq_getElem (by omega : i / 8 < b.length)]; rfl
    · rw [List.getElem?_eq_none (by omega), List.getElem?_eq_none (by omega)]; rfl
  rw [this, BitVec.getMsbD_xor]

/-- The universal hash of 128-EIA3 is linear. -/
theorem hash_linear (key iv : Bytes) {a b d : Bytes} (hb : b.length = a.length) (hd : d.length = a.length) :
    hash key iv (xorBytes (xorBytes a b) d) = hash key iv a ^^^ hash key iv b ^^^ hash key iv d := by
  have hl : (xorBytes a b).length = a.length := by simp [xorBytes, hb]
  have hl2 : (xorBytes (xorBytes a b) d).length = a.length := by simp [xorBytes, hb, hd]
  unfold hash
  rw [hl2, hb, hd]
  generalize List.range (8 * a.length) = l
  have key : ∀ t u v : BitVec 32, l.foldl (fun s i => if msgBit (xorBytes (xorBytes a b) d) i = true then s ^^^ z key iv i else s) (t ^^^ u ^^^ v) =
      l.foldl (fun s i => if msgBit a i = true then s ^^^ z key iv i else s) t ^^^ l.foldl (fun s i => if msgBit b i = true then s ^^^ z key iv i else s) u ^^^
        l.foldl (fun s i => if msgBit d i = true then s ^^^ z key iv i else s) v := by
    induction l with
    | nil => intro t u v; rfl
    | cons i l ih =>
      intro t u v
      simp only [List.foldl_cons]
      rw [← ih]
      congr 1
      rw [msgBit_xor (by rw [hl, hd]), msgBit_xor hb.symm]
      generalize z key iv i = w
      cases msgBit a i <;> cases msgBit b i <;> cases msgBit d i <;>
        simp only [Bool.xor_false, Bool.xor_self, Bool.false_eq_true, Bool.not_false, Bool.xor_true, if_true, if_false] <;>
        apply BitVec.eq_of_getLsbD_eq <;> intro j _ <;> simp only [BitVec.getLsbD_xor] <;>
        cases t.getLsbD j <;> cases u.getLsbD j <;> cases v.getLsbD j <;> cases w.getLsbD j <;> rfl
  simpa using key 0#32 0#32 0#32

end Verif.Spec.ZUC
