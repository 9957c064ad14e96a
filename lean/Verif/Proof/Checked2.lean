import Verif.Proof.Checked

/-! Lemmas for C109: SM4 and DES. -/

namespace Verif.Model.Checked

namespace SM4
open Model.SM4

theorem fTau_ok (x : BitVec 32) : fTau x = .ok (Model.SM4.fTau x) := by
  have h : sbox.length = 256 := by decide +kernel
  unfold fTau
  rw [look_ok h, look_ok h, look_ok h, look_ok h]; rfl

theorem words_ok {b : Bytes} (h : b.length = 16) : words b = .ok (Model.SM4.words b) := by
  match b, h with
  | [a0, a1, a2, a3, b0, b1, b2, b3, c0, c1, c2, c3, d0, d1, d2, d3], _ => rfl

theorem words_length (b : Bytes) : (Model.SM4.words b).length = 4 := rfl

theorem xorFk_ok {mk : List (BitVec 32)} (h : mk.length = 4) :
    xorFk mk (Nat.min mk.length 36) 0 (List.replicate 36 0#32) = .ok (List.zipWith (· ^^^ ·) mk fk ++ List.replicate 32 0#32) := by
  match mk, h with
  | [m0, m1, m2, m3], _ => rfl

theorem schedLoop_ok : ∀ (count i : Nat) (k : List (BitVec 32)), k.length = i + 4 → i + count = 32 →
    schedLoop count i (k ++ List.replicate count 0#32) (k.drop 4 ++ List.replicate count 0#32)
      = .ok ((Model.SM4.schedLoop count i k).drop 4)
  | 0, i, k, _, _ => by simp [schedLoop, Model.SM4.schedLoop]
  | count + 1, i, k, hk, hi => by
    have hc : ck.length = 32 := by decide +kernel
    unfold schedLoop Model.SM4.schedLoop
    rw [idx_app 0#32 (by omega), bind_ok, idx_app 0#32 (by omega), bind_ok, idx_app 0#32 (by omega), bind_ok, idx_app 0#32 (by omega), bind_ok,
      idx_ok 0#32 (by omega), bind_ok, fTau_ok, bind_ok, put_ok _ (by simp; omega), bind_ok]
    rw [← hk, set_append]
    rw [idx_ok' (x := k.getD i 0#32 ^^^ fLb (Model.SM4.fTau (k.getD (i + 1) 0#32 ^^^ k.getD (i + 2) 0#32 ^^^ k.getD (i + 3) 0#32 ^^^ ck.getD i 0#32)))
      (by rw [List.append_assoc, List.getElem?_append_right (Nat.le_refl _)]; simp), bind_ok]
    rw [put_ok _ (by simp; omega), bind_ok]
    have hd : i = (k.drop 4).length := by simp; omega
    have e1 : ∀ x, ((k.drop 4) ++ List.replicate (count + 1) 0#32).set i x = (k ++ [x]).drop 4 ++ List.replicate count 0#32 := by
      intro x
      conv => lhs; rw [hd, set_append]
      rw [List.drop_append_of_le_length (by omega)]
    rw [e1]
    exact schedLoop_ok count (i + 1) _ (by simp; omega) (by omega)

theorem model_schedLoop_length : ∀ (count i : Nat) (k : List (BitVec 32)), (Model.SM4.schedLoop count i k).length = k.length + count
  | 0, _, _ => rfl
  | count + 1, i, k => by
    unfold Model.SM4.schedLoop
    rw [model_schedLoop_length count]; simp; omega

theorem fromSlice_ok (key : Bytes) : fromSlice key = Model.SM4.fromSlice key := by
  unfold fromSlice Model.SM4.fromSlice
  by_cases h : key.length ≠ 16
  · rw [if_pos h, if_pos h]
  · have h16 : key.length = 16 := by omega
    rw [if_neg h, if_neg h, words_ok h16, bind_ok, xorFk_ok (words_length _), bind_ok]
    have hl : (List.zipWith (· ^^^ ·) (Model.SM4.words key) fk).length = 4 := by
      rw [List.length_zipWith, words_length]; rfl
    have := schedLoop_ok 32 0 (List.zipWith (· ^^^ ·) (Model.SM4.words key) fk) hl rfl
    rw [List.drop_eq_nil_of_le (Nat.le_of_eq hl), List.nil_append] at this
    rw [this, bind_ok]; rfl

theorem fromSlice_shape {key : Bytes} {s : SM4} (h : Model.SM4.fromSlice key = .ok s) : s.rk.length = 32 := by
  unfold Model.SM4.fromSlice at h
  by_cases hk : key.length ≠ 16
  · rw [if_pos hk] at h; cases h
  · rw [if_neg hk] at h
    injection h with h; subst h
    unfold keySchedule
    rw [List.length_drop, model_schedLoop_length, List.length_zipWith, words_length]; rfl

theorem edLoop_ok {rk : Nat → Res (BitVec 32)} {f : Nat → BitVec 32} (hr : ∀ i < 32, rk i = .ok (f i)) : ∀ (count i : Nat) (x : List (BitVec 32)),
    x.length = i + 4 → i + count = 32 → edLoop rk count i (x ++ List.replicate count 0#32) = .ok (Model.SM4.edLoop f count i x)
  | 0, i, x, _, _ => by simp [edLoop, Model.SM4.edLoop]
  | count + 1, i, x, hx, hi => by
    unfold edLoop Model.SM4.edLoop
    rw [idx_app 0#32 (by omega), bind_ok, idx_app 0#32 (by omega), bind_ok, idx_app 0#32 (by omega), bind_ok, idx_app 0#32 (by omega), bind_ok,
      hr i (by omega), bind_ok, fTau_ok, bind_ok, put_ok _ (by simp; omega), bind_ok]
    rw [← hx, set_append]
    exact edLoop_ok hr count (i + 1) _ (by simp; omega) (by omega)

theorem model_edLoop_length (f : Nat → BitVec 32) : ∀ (count i : Nat) (x : List (BitVec 32)), (Model.SM4.edLoop f count i x).length = x.length + count
  | 0, _, _ => rfl
  | count + 1, i, x => by
    unfold Model.SM4.edLoop
    rw [model_edLoop_length f count]; simp; omega

theorem edInner_ok {rk : Nat → Res (BitVec 32)} {f : Nat → BitVec 32} (hr : ∀ i < 32, rk i = .ok (f i)) (b : Bytes) :
    edInner b rk = Model.SM4.edInner b f := by
  unfold edInner Model.SM4.edInner
  by_cases h : b.length ≠ 16
  · rw [if_pos h, if_pos h]
  · have hl := model_edLoop_length f 32 0 (Model.SM4.words b)
    rw [words_length] at hl
    rw [if_neg h, if_neg h, words_ok (by omega), bind_ok, edLoop_ok hr 32 0 _ (words_length b) rfl, bind_ok, idx_ok 0#32 (by omega), bind_ok,
      idx_ok 0#32 (by omega), bind_ok, idx_ok 0#32 (by omega), bind_ok, idx_ok 0#32 (by omega), bind_ok]

theorem cipher_ok {key : Bytes} {s : SM4} (h : Model.SM4.fromSlice key = .ok s) : cipher s = Model.SM4.cipher s := by
  have hl := fromSlice_shape h
  unfold cipher Model.SM4.cipher
  congr 1
  · funext b
    exact edInner_ok (fun i hi => idx_ok _ (by omega)) b
  · funext b
    refine edInner_ok (fun i hi => ?_) b
    rw [subN_ok (by omega), bind_ok, idx_ok 0#32 (by omega)]

end SM4

namespace DES
open Model.DES

theorem permuteFrom_ok (key : BitVec 64) : ∀ (t : List Nat) (i : Nat) (kp : BitVec 64), (∀ x ∈ t, x < 64) → i + t.length ≤ 64 →
    permuteFrom key t i kp = .ok (Model.DES.permuteFrom key t i kp)
  | [], _, _, _, _ => rfl
  | ele :: rest, i, kp, h, hl => by
    unfold permuteFrom Model.DES.permuteFrom
    rw [List.length_cons] at hl
    rw [shr_ok _ (h ele List.mem_cons_self), bind_ok, shl_ok _ (by omega), bind_ok]
    exact permuteFrom_ok key rest (i + 1) _ (fun x hx => h x (List.mem_cons_of_mem _ hx)) (by omega)

theorem permute_ok (key : BitVec 64) {t : List Nat} (h : t.all (fun x => decide (x < 64)) = true ∧ t.length ≤ 64) :
    permute key t = .ok (Model.DES.permute key t) := by
  refine permuteFrom_ok key t 0 0#64 (fun x hx => ?_) (by omega)
  have := List.all_eq_true.mp h.1 x hx
  exact of_decide_eq_true this

theorem toBytes_length (x : BitVec 64) : (toBytes x).length = 8 := rfl

theorem rot_ok (key : BitVec 64) {sl sr i : Nat} (h1 : sl < 8) (h2 : sr < 8) (hi : i < 7) :
    rot (toBytes key) sl sr i = .ok ((((toBytes key).getD i 0#8 <<< sl) ||| ((toBytes key).getD (i + 1) 0#8 >>> sr)).setWidth 64) := by
  unfold rot
  rw [idx_ok 0#8 (by rw [toBytes_length]; omega), bind_ok, shl_ok _ h1, bind_ok, idx_ok 0#8 (by rw [toBytes_length]; omega), bind_ok, shr_ok _ h2, bind_ok]

theorem ksRotate_ok (key : BitVec 64) {cl : Nat} (h1 : 1 ≤ cl) (h2 : cl ≤ 3) : ksRotate key cl = .ok (Model.DES.ksRotate key cl) := by
  have hi : ∀ i, i < 8 → idx (toBytes key) i = .ok ((toBytes key).getD i 0#8) := fun i hi => idx_ok _ (by rw [toBytes_length]; exact hi)
  have hr : ∀ i, i < 7 → rot (toBytes key) cl (8 - cl) i = _ := fun i hi => rot_ok key (sl := cl) (sr := 8 - cl) (by omega) (by omega) hi
  unfold ksRotate
  simp only []
  rw [subN_ok (by omega), bind_ok, hr 0 (by omega), bind_ok, hr 1 (by omega), bind_ok, shl_ok _ (by omega), bind_ok, hr 2 (by omega), bind_ok,
    shl_ok _ (by omega), bind_ok, addN_ok (by omega), bind_ok, hi 3 (by omega), bind_ok, shl_ok _ (by omega), bind_ok, shl_ok _ (by omega), bind_ok,
    hi 0 (by omega), bind_ok, shr_ok _ (by omega), bind_ok, shl_ok _ (by omega), bind_ok, shr_ok _ (by omega), bind_ok, hi 4 (by omega), bind_ok,
    shr_ok _ (by omega), bind_ok, shl_ok _ (by omega), bind_ok, hr 4 (by omega), bind_ok, shl_ok _ (by omega), bind_ok, hr 5 (by omega), bind_ok,
    shl_ok _ (by omega), bind_ok, shl_ok _ (by omega), bind_ok, hi 6 (by omega), bind_ok, shl_ok _ (by omega), bind_ok, bind_ok,
    shr_ok _ (by omega), bind_ok, shl_ok _ (by omega), bind_ok]
  rfl

theorem schedFrom_ok : ∀ (count i : Nat) (k : BitVec 64) (out : List (BitVec 64)), i + count = 16 → out.length = i →
    schedFrom count i k (out ++ List.replicate count 0#64) = .ok (out ++ Model.DES.schedFrom (ls.drop i) k)
  | 0, i, k, out, hi, _ => by
    have : i = 16 := by omega
    subst this
    have : ls.drop 16 = [] := rfl
    rw [this]; simp [schedFrom, Model.DES.schedFrom]
  | count + 1, i, k, out, hi, ho => by
    have hl : ls.length = 16 := rfl
    have hd : ls.drop i = ls[i]'(by omega) :: ls.drop (i + 1) := List.drop_eq_getElem_cons (by omega)
    have hb : 1 ≤ ls[i]'(by omega) ∧ ls[i]'(by omega) ≤ 3 := by
      have : ls.all (fun x => decide (1 ≤ x ∧ x ≤ 3)) = true := by decide +kernel
      exact of_decide_eq_true (List.all_eq_true.mp this _ (List.getElem_mem _))
    unfold schedFrom
    rw [hd]
    unfold Model.DES.schedFrom
    rw [idx_ok' (List.getElem?_eq_getElem (by omega)), bind_ok, ksRotate_ok _ hb.1 hb.2, bind_ok, permute_ok _ (by decide +kernel), bind_ok,
      put_ok _ (by simp; omega), bind_ok]
    have e := set_append out 0#64 count (Model.DES.permute (Model.DES.ksRotate k (ls[i]'(by omega))) pc2)
    rw [ho] at e
    rw [e, schedFrom_ok count (i + 1) _ _ (by omega) (by simp; omega), List.append_assoc]
    rfl

theorem new_ok (key : Bytes) : new key = .ok (Model.DES.new key) := by
  unfold new
  rw [permute_ok _ (by decide +kernel), bind_ok]
  have := schedFrom_ok 16 0 (Model.DES.permute (fromBytes key) pc1) [] rfl rfl
  rw [List.nil_append] at this
  rw [this, bind_ok]; rfl

theorem model_schedFrom_length : ∀ (l : List Nat) (k : BitVec 64), (Model.DES.schedFrom l k).length = l.length
  | [], _ => rfl
  | _ :: rest, k => by
    unfold Model.DES.schedFrom
    simp only [List.length_cons]
    rw [model_schedFrom_length rest]

theorem new_shape (key : Bytes) : (Model.DES.new key).ks.length = 16 := model_schedFrom_length ls _

theorem sboxIdx_ok : ∀ b : Byte, sboxIdx b = .ok (Model.DES.sboxIdx b) ∧ Model.DES.sboxIdx b < 64 := by decide +kernel

theorem sAt_ok {i : Nat} (hi : i < 8) (b : Byte) : sAt i b = .ok (Model.DES.sAt i b) ∧ (Model.DES.sAt i b).toNat < 16 := by
  have hs : s.length = 8 := rfl
  have ht : ∀ t ∈ s, t.length = 64 ∧ ∀ x ∈ t, x < 16 := by decide +kernel
  have hm : s.getD i [] ∈ s := by
    rw [List.getD_eq_getElem?_getD, List.getElem?_eq_getElem (by omega)]
    exact List.getElem_mem _
  have hj := sboxIdx_ok b
  have hx : (s.getD i []).getD (Model.DES.sboxIdx b) 0 < 16 := by
    have hlt : Model.DES.sboxIdx b < (s.getD i []).length := by rw [(ht _ hm).1]; exact hj.2
    rw [List.getD_eq_getElem?_getD, List.getElem?_eq_getElem hlt]
    exact (ht _ hm).2 _ (List.getElem_mem _)
  unfold sAt Model.DES.sAt
  rw [idx_ok [] (by omega), bind_ok, hj.1, bind_ok, idx_ok 0 (by rw [(ht _ hm).1]; exact hj.2), bind_ok]
  refine ⟨rfl, ?_⟩
  rw [BitVec.toNat_ofNat]
  exact Nat.lt_of_le_of_lt (Nat.mod_le _ _) hx

theorem pair_ok {i : Nat} (hi : i + 1 < 8) (x y : Byte) : pair i x y = .ok ((Model.DES.sAt i x <<< 4) + Model.DES.sAt (i + 1) y) := by
  obtain ⟨h1, h2⟩ := sAt_ok (i := i) (by omega) x
  obtain ⟨h3, h4⟩ := sAt_ok hi y
  unfold pair
  rw [h1, bind_ok, shl_ok _ (by omega), bind_ok, h3, bind_ok, add_ok]
  rw [BitVec.toNat_shiftLeft, Nat.shiftLeft_eq]
  have : (Model.DES.sAt i x).toNat * 2 ^ 4 % 2 ^ 64 ≤ (Model.DES.sAt i x).toNat * 2 ^ 4 := Nat.mod_le _ _
  omega

theorem mix_sum1 : ∀ x : Byte, ((x &&& 3#8) <<< 4).toNat ≤ 48 := by decide +kernel
theorem mix_sum2 : ∀ x : Byte, ((x &&& 15#8) <<< 2).toNat ≤ 60 := by decide +kernel
theorem mix_shr1 : ∀ y : Byte, (y >>> 4).toNat ≤ 15 := by decide +kernel
theorem mix_shr2 : ∀ y : Byte, (y >>> 6).toNat ≤ 3 := by decide +kernel

theorem mix_ok1 (t : BitVec 64) {i : Nat} (hi : i < 7) :
    mix (toBytes t) i 3#8 4 4 = .ok ((((toBytes t).getD i 0#8 &&& 3#8) <<< 4) + ((toBytes t).getD (i + 1) 0#8 >>> 4)) := by
  unfold mix
  rw [idx_ok 0#8 (by rw [toBytes_length]; omega), bind_ok, shl_ok _ (by omega), bind_ok, idx_ok 0#8 (by rw [toBytes_length]; omega), bind_ok,
    shr_ok _ (by omega), bind_ok, add_ok]
  have h1 := mix_sum1 ((toBytes t).getD i 0#8)
  have h2 := mix_shr1 ((toBytes t).getD (i + 1) 0#8)
  omega

theorem mix_ok2 (t : BitVec 64) {i : Nat} (hi : i < 7) :
    mix (toBytes t) i 15#8 2 6 = .ok ((((toBytes t).getD i 0#8 &&& 15#8) <<< 2) + ((toBytes t).getD (i + 1) 0#8 >>> 6)) := by
  unfold mix
  rw [idx_ok 0#8 (by rw [toBytes_length]; omega), bind_ok, shl_ok _ (by omega), bind_ok, idx_ok 0#8 (by rw [toBytes_length]; omega), bind_ok,
    shr_ok _ (by omega), bind_ok, add_ok]
  have h1 := mix_sum2 ((toBytes t).getD i 0#8)
  have h2 := mix_shr2 ((toBytes t).getD (i + 1) 0#8)
  omega

theorem fSbox_ok (t : BitVec 64) : fSbox t = .ok (Model.DES.fSbox t) := by
  have hi : ∀ i, i < 8 → idx (toBytes t) i = .ok ((toBytes t).getD i 0#8) := fun i hi => idx_ok _ (by rw [toBytes_length]; exact hi)
  unfold fSbox
  simp only []
  rw [hi 0 (by omega), bind_ok, shr_ok _ (by omega), bind_ok, mix_ok1 t (by omega), bind_ok, mix_ok2 t (by omega), bind_ok, hi 2 (by omega), bind_ok,
    hi 3 (by omega), bind_ok, shr_ok _ (by omega), bind_ok, mix_ok1 t (by omega), bind_ok, mix_ok2 t (by omega), bind_ok, hi 5 (by omega), bind_ok,
    pair_ok (by omega), bind_ok, pair_ok (by omega), bind_ok, shl_ok _ (by omega), bind_ok, pair_ok (by omega), bind_ok, shl_ok _ (by omega), bind_ok,
    pair_ok (by omega), bind_ok, shl_ok _ (by omega), bind_ok]
  rfl

theorem feistel_ok (r k : BitVec 64) : feistel r k = .ok (Model.DES.feistel r k) := by
  unfold feistel
  rw [permute_ok _ (by decide +kernel), bind_ok, fSbox_ok, bind_ok, permute_ok _ (by decide +kernel)]; rfl

theorem rounds_ok {k : Nat → Res (BitVec 64)} {f : Nat → BitVec 64} (hk : ∀ i < 16, k i = .ok (f i)) : ∀ (count i : Nat) (l r : BitVec 64), i + count ≤ 16 →
    rounds k count i l r = .ok (Model.DES.rounds f count i (l, r))
  | 0, _, _, _, _ => rfl
  | count + 1, i, l, r, h => by
    unfold rounds Model.DES.rounds
    rw [hk i (by omega), bind_ok, feistel_ok, bind_ok]
    exact rounds_ok hk count (i + 1) _ _ (by omega)

theorem cryptBlock_ok {d : DES} (hd : d.ks.length = 16) (b : Bytes) (enc : Bool) : cryptBlock d b enc = .ok (Model.DES.cryptBlock d b enc) := by
  unfold cryptBlock Model.DES.cryptBlock
  simp only []
  rw [permute_ok _ (by decide +kernel), bind_ok, shr_ok _ (by omega), bind_ok]
  cases enc with
  | true =>
    simp only [if_true]
    rw [rounds_ok (f := fun i => d.ks.getD i 0#64) (fun i hi => idx_ok _ (by omega)) 16 0 _ _ (by omega), bind_ok]
    rw [shl_ok _ (by omega), bind_ok, permute_ok _ (by decide +kernel), bind_ok]
  | false =>
    simp only [Bool.false_eq_true, if_false]
    rw [rounds_ok (f := fun i => d.ks.getD (15 - i) 0#64) (fun i hi => by rw [subN_ok (by omega), bind_ok, idx_ok 0#64 (by omega)]) 16 0 _ _ (by omega), bind_ok]
    rw [shl_ok _ (by omega), bind_ok, permute_ok _ (by decide +kernel), bind_ok]

theorem cipher_ok {d : DES} (hd : d.ks.length = 16) : cipher d = Model.DES.cipher d := by
  unfold cipher Model.DES.cipher
  congr 1
  · funext b
    by_cases hb : b.length = 8
    · rw [if_pos hb, if_pos hb, cryptBlock_ok hd]
    · rw [if_neg hb, if_neg hb]
  · funext b
    by_cases hb : b.length = 8
    · rw [if_pos hb, if_pos hb, cryptBlock_ok hd]
    · rw [if_neg hb, if_neg hb]

end DES

end Verif.Model.Checked
