import Verif.Proof.Checked2
import Verif.Proof.ZUC

/-! Lemmas for C109: ZUC, its cipher and its MAC, and the round constants of Keccak. -/

namespace Verif.Model.Checked

namespace TDES

theorem new_ok (k1 k2 k3 : Bytes) : new k1 k2 k3 = .ok (Model.TDES.new k1 k2 k3) := by
  unfold new
  rw [DES.new_ok, bind_ok, DES.new_ok, bind_ok, DES.new_ok, bind_ok]; rfl

theorem cipher_ok (k1 k2 k3 : Bytes) : cipher (Model.TDES.new k1 k2 k3) = Model.TDES.cipher (Model.TDES.new k1 k2 k3) := by
  unfold cipher Model.TDES.cipher
  rw [DES.cipher_ok (d := (Model.TDES.new k1 k2 k3).des1) (DES.new_shape k1), DES.cipher_ok (d := (Model.TDES.new k1 k2 k3).des2) (DES.new_shape k2),
    DES.cipher_ok (d := (Model.TDES.new k1 k2 k3).des3) (DES.new_shape k3)]

end TDES

namespace ZUC
open Model.ZUC

theorem rhl31_ok (a : BitVec 32) {k : Nat} (h : k ≤ 31) : rhl31 a k = .ok (Model.ZUC.rhl31 a k) := by
  unfold rhl31
  rw [shl_ok _ (by omega), bind_ok, subN_ok h, bind_ok, shr_ok _ (by omega), bind_ok]; rfl

theorem addMod31_ok (a b : BitVec 32) : addMod31 a b = .ok (Model.ZUC.addMod31 a b) := by
  unfold addMod31
  simp only []
  rw [shr_ok _ (by omega), bind_ok, add_ok (Model.ZUC.addMod31_sum _)]; rfl

theorem tap_ok {l : List (BitVec 32)} {i k : Nat} (hi : i < l.length) (hk : k ≤ 31) (v : BitVec 32) :
    tap l i k v = .ok (Model.ZUC.addMod31 (Model.ZUC.rhl31 (cell l i) k) v) := by
  unfold tap
  rw [idx_ok 0#32 hi, bind_ok, rhl31_ok _ hk, bind_ok, addMod31_ok]; rfl

theorem feedback_ok {l : List (BitVec 32)} (h : l.length = 17) : feedback l = .ok (Model.ZUC.feedback l) := by
  unfold feedback
  rw [idx_ok 0#32 (by omega), bind_ok, tap_ok (by omega) (by omega), bind_ok, tap_ok (by omega) (by omega), bind_ok, tap_ok (by omega) (by omega), bind_ok,
    tap_ok (by omega) (by omega), bind_ok, tap_ok (by omega) (by omega)]; rfl

theorem shiftLoop_ok : ∀ (count i : Nat) (l : List (BitVec 32)), i + count < l.length →
    shiftLoop count i l = .ok ((List.range' i count).foldl (fun l i => l.set i (cell l (i + 1))) l)
  | 0, _, _, _ => rfl
  | count + 1, i, l, h => by
    unfold shiftLoop
    rw [idx_ok 0#32 (by omega), bind_ok, put_ok _ (by omega), bind_ok, List.range'_succ, List.foldl_cons]
    exact shiftLoop_ok count (i + 1) _ (by rw [List.length_set]; omega)

theorem shiftIn_ok {l : List (BitVec 32)} (h : l.length = 17) (v : BitVec 32) : shiftIn l v = .ok (Model.ZUC.shiftIn l v) := by
  unfold shiftIn
  rw [subN_ok (by omega), bind_ok, put_ok _ (by omega), bind_ok, subN_ok (by rw [List.length_set]; omega), bind_ok,
    shiftLoop_ok _ _ _ (by rw [List.length_set]; omega), List.length_set, h]
  unfold Model.ZUC.shiftIn
  rw [List.range_eq_range']

theorem shiftIn_length {l : List (BitVec 32)} (h : l.length = 17) (v : BitVec 32) : (Model.ZUC.shiftIn l v).length = 17 := by
  have : ∀ (r : List Nat) (l : List (BitVec 32)), (r.foldl (fun l i => l.set i (cell l (i + 1))) l).length = l.length := by
    intro r
    induction r with
    | nil => intro l; rfl
    | cons a r ih => intro l; rw [List.foldl_cons, ih, List.length_set]
  unfold Model.ZUC.shiftIn
  rw [this, List.length_set, h]

theorem F_lfsr (m : State) (x0 x1 x2 : BitVec 32) : (Model.ZUC.nonLinearF m x0 x1 x2).1.lfsr = m.lfsr := rfl

attribute [local irreducible] Model.ZUC.shiftIn Model.ZUC.feedback

theorem lfsrInit_ok {s : State} (h : s.lfsr.length = 17) (u : BitVec 32) : lfsrInit s u = .ok (Model.ZUC.lfsrInit s u) ∧ (Model.ZUC.lfsrInit s u).lfsr.length = 17 := by
  unfold lfsrInit
  rw [feedback_ok h, bind_ok, addMod31_ok, bind_ok, shiftIn_ok h, bind_ok]
  exact ⟨rfl, shiftIn_length h _⟩

theorem lfsrWork_ok {s : State} (h : s.lfsr.length = 17) : lfsrWork s = .ok (Model.ZUC.lfsrWork s) ∧ (Model.ZUC.lfsrWork s).lfsr.length = 17 := by
  unfold lfsrWork
  rw [feedback_ok h, bind_ok, shiftIn_ok h, bind_ok]
  exact ⟨rfl, shiftIn_length h _⟩

theorem sbox_ok (x : BitVec 32) : sbox x = .ok (Model.ZUC.sbox x) := by
  have h0 : s0.length = 256 := by decide +kernel
  have h1 : s1.length = 256 := by decide +kernel
  unfold sbox
  rw [look_ok h0, look_ok h1, look_ok h0, look_ok h1]; rfl

theorem nonLinearF_ok (s : State) (x0 x1 x2 : BitVec 32) : nonLinearF s x0 x1 x2 = .ok (Model.ZUC.nonLinearF s x0 x1 x2) := by
  unfold nonLinearF
  simp only []
  rw [shl_ok _ (by omega), bind_ok, shr_ok _ (by omega), bind_ok, sbox_ok, bind_ok, shl_ok _ (by omega), bind_ok, shr_ok _ (by omega), bind_ok, sbox_ok,
    bind_ok]; rfl

theorem halves_ok {l : List (BitVec 32)} {i j : Nat} (hi : i < l.length) (hj : j < l.length) : halves l i j = .ok ((cell l i >>> 15) ||| (cell l j <<< 16)) := by
  unfold halves
  rw [idx_ok 0#32 hi, bind_ok, shr_ok _ (by omega), bind_ok, idx_ok 0#32 hj, bind_ok, shl_ok _ (by omega), bind_ok]; rfl

theorem bitReconstruction_ok {s : State} (h : s.lfsr.length = 17) : bitReconstruction s = .ok (Model.ZUC.bitReconstruction s) := by
  unfold bitReconstruction
  rw [idx_ok 0#32 (by omega), bind_ok, shl_ok _ (by omega), bind_ok, idx_ok 0#32 (by omega), bind_ok, halves_ok (by omega) (by omega), bind_ok,
    halves_ok (by omega) (by omega), bind_ok, halves_ok (by omega) (by omega), bind_ok]; rfl

theorem initLoop_ok : ∀ (n : Nat) (s : State), s.lfsr.length = 17 →
    initLoop n s = .ok (Nat.repeat initStep n s) ∧ (Nat.repeat initStep n s).lfsr.length = 17 := by
  have comm : ∀ (n : Nat) (s : State), Nat.repeat initStep (n + 1) s = Nat.repeat initStep n (initStep s) := by
    intro n
    induction n with
    | zero => intro s; rfl
    | succ n ih => intro s; exact congrArg initStep (ih s)
  intro n
  induction n with
  | zero => intro s h; exact ⟨rfl, h⟩
  | succ n ih =>
    intro s h
    have hF : (Model.ZUC.nonLinearF s (Model.ZUC.bitReconstruction s).1 (Model.ZUC.bitReconstruction s).2.1 (Model.ZUC.bitReconstruction s).2.2.1).1.lfsr.length = 17 := h
    have hL := lfsrInit_ok hF ((Model.ZUC.nonLinearF s (Model.ZUC.bitReconstruction s).1 (Model.ZUC.bitReconstruction s).2.1 (Model.ZUC.bitReconstruction s).2.2.1).2 >>> 1)
    have hS := ih (initStep s) hL.2
    unfold initLoop
    rw [bitReconstruction_ok h, bind_ok]
    simp only []
    rw [nonLinearF_ok, bind_ok]
    rw [shr_ok _ (by omega), bind_ok, hL.1, bind_ok, comm]
    exact hS

theorem initAndFirstStep_ok {s : State} (h : s.lfsr.length = 17) :
    initAndFirstStep s = .ok (Model.ZUC.initAndFirstStep s) ∧ (Model.ZUC.initAndFirstStep s).lfsr.length = 17 := by
  have h1 := initLoop_ok 32 s h
  have h2 := lfsrWork_ok (s := (Model.ZUC.nonLinearF (Nat.repeat initStep 32 s) (Model.ZUC.bitReconstruction (Nat.repeat initStep 32 s)).1
    (Model.ZUC.bitReconstruction (Nat.repeat initStep 32 s)).2.1 (Model.ZUC.bitReconstruction (Nat.repeat initStep 32 s)).2.2.1).1) (by rw [F_lfsr]; exact h1.2)
  have hm : Model.ZUC.initAndFirstStep s = Model.ZUC.lfsrWork (Model.ZUC.nonLinearF (Nat.repeat initStep 32 s) (Model.ZUC.bitReconstruction (Nat.repeat initStep 32 s)).1
    (Model.ZUC.bitReconstruction (Nat.repeat initStep 32 s)).2.1 (Model.ZUC.bitReconstruction (Nat.repeat initStep 32 s)).2.2.1).1 := by
    unfold Model.ZUC.initAndFirstStep
    rw [Model.ZUC.foldl_range_repeat]
  rw [hm]
  unfold initAndFirstStep
  rw [h1.1, bind_ok, bitReconstruction_ok h1.2, bind_ok]
  simp only []
  rw [nonLinearF_ok, bind_ok]
  exact h2

theorem generate_length : ∀ (l : List (BitVec 32)) (k : Bytes) (d : List (BitVec 16)) (v : Bytes), (generate l k d v).length = l.length
  | [], _, _, _ => by unfold generate; rfl
  | _ :: ls, k, d, v => by
    cases k with
    | nil => unfold generate; rfl
    | cons a k =>
      cases d with
      | nil => unfold generate; rfl
      | cons b d =>
        cases v with
        | nil => unfold generate; rfl
        | cons c v =>
          unfold generate
          rw [List.length_cons, List.length_cons, generate_length ls k d v]

theorem fromSlice_ok (key iv : Bytes) : fromSlice key iv = Model.ZUC.fromSlice key iv ∧ ∀ s, Model.ZUC.fromSlice key iv = .ok s → s.lfsr.length = 17 := by
  unfold fromSlice Model.ZUC.fromSlice
  by_cases h : key.length ≠ 16 ∨ iv.length ≠ 16
  · rw [if_pos h, if_pos h]; exact ⟨rfl, fun s e => by cases e⟩
  · rw [if_neg h, if_neg h]
    have := initAndFirstStep_ok (s := keySchedule key iv) (by unfold keySchedule; rw [generate_length]; rfl)
    exact ⟨this.1, fun s e => by injection e with e; rw [← e]; exact this.2⟩

theorem setSlice_ok {s : State} (hs : s.lfsr.length = 17) (key iv : Bytes) :
    setSlice s key iv = Model.ZUC.setSlice s key iv ∧ ∀ s', Model.ZUC.setSlice s key iv = .ok s' → s'.lfsr.length = 17 := by
  unfold setSlice Model.ZUC.setSlice
  by_cases h : key.length ≠ 16 ∨ iv.length ≠ 16
  · rw [if_pos h, if_pos h]; exact ⟨rfl, fun s e => by cases e⟩
  · rw [if_neg h, if_neg h]
    have := initAndFirstStep_ok (s := { lfsr := generate s.lfsr key kd iv, r1 := 0#32, r2 := 0#32 }) (by rw [generate_length]; exact hs)
    exact ⟨this.1, fun s e => by injection e with e; rw [← e]; exact this.2⟩

theorem zuc_ok {s : State} (h : s.lfsr.length = 17) : zuc s = .ok (Model.ZUC.zuc s) ∧ (Model.ZUC.zuc s).2.lfsr.length = 17 := by
  have h2 := lfsrWork_ok (s := (Model.ZUC.nonLinearF s (Model.ZUC.bitReconstruction s).1 (Model.ZUC.bitReconstruction s).2.1
    (Model.ZUC.bitReconstruction s).2.2.1).1) h
  unfold zuc
  rw [bitReconstruction_ok h, bind_ok]
  simp only []
  rw [nonLinearF_ok, bind_ok]
  rw [h2.1, bind_ok]
  exact ⟨rfl, h2.2⟩

end ZUC

namespace ZUCCipher
open Model.ZUCCipher

theorem moveLoop_ok (len : Nat) : ∀ (count j : Nat) (key : Bytes), len + j + count ≤ key.length → 
    ∃ key', moveLoop len count j key = .ok key' ∧ key'.length = key.length ∧ (∀ i, i < j → key'[i]? = key[i]?) ∧
      ∀ i, i < count → key'[j + i]? = key[len + j + i]?
  | 0, j, key, _ => ⟨key, rfl, rfl, fun _ _ => rfl, fun _ h => absurd h (by omega)⟩
  | count + 1, j, key, h => by
    unfold moveLoop
    rw [idx_ok' (x := key[len + j]'(by omega)) (List.getElem?_eq_getElem (by omega)), bind_ok, put_ok _ (by omega), bind_ok]
    obtain ⟨key', h1, h2, h3, h4⟩ := moveLoop_ok len count (j + 1) (key.set j (key[len + j]'(by omega))) (by rw [List.length_set]; omega)
    refine ⟨key', h1, by rw [h2, List.length_set], fun i hi => ?_, fun i hi => ?_⟩
    · rw [h3 i (by omega), List.getElem?_set_ne (by omega)]
    · cases i with
      | zero =>
        rw [Nat.add_zero, Nat.add_zero, h3 j (by omega), List.getElem?_set_self (by omega), List.getElem?_eq_getElem (by omega)]
      | succ i =>
        have := h4 i (by omega)
        rw [show j + (i + 1) = j + 1 + i by omega, this, List.getElem?_set_ne (by omega)]
        congr 1; omega

theorem move_take {len : Nat} {key : Bytes} (h : len ≤ key.length) :
    ∃ key', moveLoop len (Nat.min (key.length - len) key.length) 0 key = .ok key' ∧ key'.length = key.length ∧ key'.take (key.length - len) = key.drop len := by
  have hm : Nat.min (key.length - len) key.length = key.length - len := Nat.min_eq_left (by omega)
  rw [hm]
  obtain ⟨key', h1, h2, _, h4⟩ := moveLoop_ok len (key.length - len) 0 key (by omega)
  refine ⟨key', h1, h2, ?_⟩
  apply List.ext_getElem?
  intro i
  by_cases hi : i < key.length - len
  · rw [List.getElem?_take_of_lt hi, List.getElem?_drop]
    have := h4 i hi
    rw [Nat.zero_add, Nat.add_zero] at this
    exact this
  · rw [List.getElem?_eq_none (by simp; omega), List.getElem?_eq_none (by simp; omega)]

theorem wholeWords_ok : ∀ (n : Nat) (z : ZUC.State) (m : Bytes), z.lfsr.length = 17 →
    wholeWords n z m = Model.ZUCCipher.wholeWords n z m ∧ ∀ o r z', Model.ZUCCipher.wholeWords n z m = .ok (o, r, z') → z'.lfsr.length = 17
  | 0, z, m, h => ⟨rfl, fun o r z' e => by cases e; exact h⟩
  | n + 1, z, m, h => by
    have hz := ZUC.zuc_ok h
    unfold wholeWords Model.ZUCCipher.wholeWords
    rw [hz.1, bind_ok]
    simp only []
    cases hw : wordXor (be32 (Model.ZUC.zuc z).1) m with
    | error e => exact ⟨rfl, fun o r z' e => by cases e⟩
    | ok p =>
      obtain ⟨out, rest⟩ := p
      have ih := wholeWords_ok n (Model.ZUC.zuc z).2 rest hz.2
      simp only [bind_ok]
      rw [ih.1]
      refine ⟨rfl, fun o r z' e => ?_⟩
      cases hm : Model.ZUCCipher.wholeWords n (Model.ZUC.zuc z).2 rest with
      | error e' => rw [hm] at e; cases e
      | ok q =>
        obtain ⟨o', r', z''⟩ := q
        rw [hm] at e
        cases e
        exact ih.2 o' _ _ hm

theorem encrypt_ok {s : State} (h : s.zuc.lfsr.length = 17) {m : Bytes} (hm : m.length + 3 < 2 ^ 64) :
    encrypt s m = Model.ZUCCipher.encrypt s m ∧ ∀ d n s', Model.ZUCCipher.encrypt s m = .ok (d, n, s') → s'.zuc.lfsr.length = 17 := by
  obtain ⟨key', k1, k2, k3⟩ := move_take (len := Nat.min s.key.length m.length) (key := s.key) (Nat.min_le_left _ _)
  have hmin : Nat.min s.key.length m.length ≤ m.length := Nat.min_le_right _ _
  unfold encrypt Model.ZUCCipher.encrypt
  simp only []
  rw [if_pos hmin, bind_ok, k1, bind_ok, subN_ok (by rw [k2]; exact Nat.min_le_left _ _), bind_ok, k2, k3]
  by_cases he : m.drop (Nat.min s.key.length m.length) = []
  · rw [if_pos he, if_pos he]
    exact ⟨rfl, fun d n s' e => by cases e; exact h⟩
  · rw [if_neg he, if_neg he]
    have hl : 0 < (m.drop (Nat.min s.key.length m.length)).length := List.length_pos_iff.mpr he
    have hl2 : (m.drop (Nat.min s.key.length m.length)).length ≤ m.length := by rw [List.length_drop]; omega
    have hsh : ((m.drop (Nat.min s.key.length m.length)).length + 3) >>> 2 = ((m.drop (Nat.min s.key.length m.length)).length + 3) / 4 := by
      rw [Nat.shiftRight_eq_div_pow]
    rw [addN_ok (by omega), bind_ok, hsh, subN_ok (by omega), bind_ok]
    have hw := wholeWords_ok (((m.drop (Nat.min s.key.length m.length)).length + 3) / 4 - 1) s.zuc (m.drop (Nat.min s.key.length m.length)) h
    rw [hw.1]
    cases hx : Model.ZUCCipher.wholeWords (((m.drop (Nat.min s.key.length m.length)).length + 3) / 4 - 1) s.zuc (m.drop (Nat.min s.key.length m.length)) with
    | error e => exact ⟨rfl, fun d n s' e => by cases e⟩
    | ok p =>
      obtain ⟨out, rest, z⟩ := p
      have hz := ZUC.zuc_ok (hw.2 _ _ _ hx)
      simp only [bind_ok]
      rw [hz.1, bind_ok]
      exact ⟨rfl, fun d n s' e => by cases e; exact hz.2⟩

theorem reset_ok {s : State} (h : s.zuc.lfsr.length = 17) : reset s = Model.ZUCCipher.reset s ∧ ∀ s', Model.ZUCCipher.reset s = .ok s' → s'.zuc.lfsr.length = 17 := by
  have hs := ZUC.setSlice_ok h s.ck s.iv
  unfold reset Model.ZUCCipher.reset
  rw [hs.1]
  refine ⟨rfl, fun s' e => ?_⟩
  cases hx : Model.ZUC.setSlice s.zuc s.ck s.iv with
  | error _ => rw [hx] at e; cases e
  | ok z => rw [hx] at e; cases e; exact hs.2 z hx

theorem fromSlice_ok (c : BitVec 32) (b : Byte) (d : Bool) (ck : Bytes) :
    fromSlice c b d ck = Model.ZUCCipher.fromSlice c b d ck ∧ ∀ s, Model.ZUCCipher.fromSlice c b d ck = .ok s → s.zuc.lfsr.length = 17 := by
  have hs := ZUC.fromSlice_ok ck (mkIv c b d)
  unfold fromSlice Model.ZUCCipher.fromSlice
  by_cases h : ck.length ≠ 16
  · rw [if_pos h, if_pos h]; exact ⟨rfl, fun s e => by cases e⟩
  · rw [if_neg h, if_neg h]
    simp only []
    rw [hs.1]
    refine ⟨rfl, fun s' e => ?_⟩
    cases hx : Model.ZUC.fromSlice ck (mkIv c b d) with
    | error _ => rw [hx] at e; cases e
    | ok z => rw [hx] at e; cases e; exact hs.2 z hx

end ZUCCipher

namespace ZUCMac
open Model.ZUCMac

attribute [local irreducible] Model.ZUC.zuc

theorem and7 (i : Nat) : i &&& 7 = i % 8 := by
  have := Nat.and_two_pow_sub_one_eq_mod i 3
  exact this
theorem and31 (i : Nat) : i &&& 31 = i % 32 := by
  have := Nat.and_two_pow_sub_one_eq_mod i 5
  exact this

theorem isOne_ok {data : Bytes} {i : Nat} (h : i < data.length * 8) : isOne data i = .ok (Model.ZUCMac.isOne data i) := by
  unfold isOne
  have h8 : i % 8 < 8 := Nat.mod_lt _ (by omega)
  rw [and7, subN_ok (by omega), bind_ok, Nat.shiftRight_eq_div_pow, idx_ok 0#8 (by omega), bind_ok, shl_ok _ (by omega), bind_ok]; rfl

theorem keyWord_ok (k0 k1 : BitVec 32) {rem : Nat} (h0 : rem ≠ 0) (h : rem < 32) : keyWord k0 k1 rem = .ok ((k0 <<< rem) ||| (k1 >>> (32 - rem))) := by
  unfold keyWord
  rw [shl_ok _ h, bind_ok, subN_ok (by omega), bind_ok, shr_ok _ (by omega), bind_ok]

theorem step_ok {data : Bytes} {s : State} (hs : s.zuc.lfsr.length = 17) {i : Nat} (h : i < data.length * 8) :
    step data s i = .ok (Model.ZUCMac.step data s i) ∧ (Model.ZUCMac.step data s i).zuc.lfsr.length = 17 ∧ (Model.ZUCMac.step data s i).length = s.length := by
  have h32 : i % 32 < 32 := Nat.mod_lt _ (by omega)
  have ht : (if Model.ZUCMac.isOne data i then
      (if i % 32 = 0 then .ok (s.t ^^^ s.key0) else do
        let k ← keyWord s.key0 s.key1 (i % 32)
        .ok (s.t ^^^ k))
    else .ok s.t : Res (BitVec 32)) = .ok (if Model.ZUCMac.isOne data i then s.t ^^^ Model.ZUCMac.keyWord s.key0 s.key1 (i % 32) else s.t) := by
    by_cases h1 : Model.ZUCMac.isOne data i = true
    · rw [if_pos h1, if_pos h1]
      unfold Model.ZUCMac.keyWord
      by_cases h0 : i % 32 = 0
      · rw [if_pos h0, if_pos h0]
      · rw [if_neg h0, if_neg h0, keyWord_ok _ _ h0 h32, bind_ok]
    · rw [if_neg h1, if_neg h1]
  unfold step Model.ZUCMac.step
  simp only []
  rw [and31, isOne_ok h, bind_ok, ht, bind_ok]
  have hz := ZUC.zuc_ok hs
  by_cases h1 : Model.ZUCMac.isOne data i = true
  · rw [if_pos h1, if_pos h1]
    by_cases hr : i % 32 = 31
    · rw [if_pos hr, if_pos hr, hz.1, bind_ok]
      exact ⟨rfl, hz.2, rfl⟩
    · rw [if_neg hr, if_neg hr]
      exact ⟨rfl, hs, rfl⟩
  · rw [if_neg h1, if_neg h1]
    by_cases hr : i % 32 = 31
    · rw [if_pos hr, if_pos hr, hz.1, bind_ok]
      exact ⟨rfl, hz.2, rfl⟩
    · rw [if_neg hr, if_neg hr]
      exact ⟨rfl, hs, rfl⟩

theorem loop_ok {data : Bytes} : ∀ (count i : Nat) (s : State), s.zuc.lfsr.length = 17 → i + count ≤ data.length * 8 →
    loop data count i s = .ok ((List.range' i count).foldl (Model.ZUCMac.step data) s) ∧
    ((List.range' i count).foldl (Model.ZUCMac.step data) s).zuc.lfsr.length = 17 ∧
    ((List.range' i count).foldl (Model.ZUCMac.step data) s).length = s.length
  | 0, _, s, h, _ => ⟨rfl, h, rfl⟩
  | count + 1, i, s, h, hi => by
    have h1 := step_ok (data := data) h (i := i) (by omega)
    have h2 := loop_ok (data := data) count (i + 1) (Model.ZUCMac.step data s i) h1.2.1 (by omega)
    unfold loop
    rw [h1.1, bind_ok, List.range'_succ, List.foldl_cons]
    exact ⟨h2.1, h2.2.1, h2.2.2.trans h1.2.2⟩

theorem reset_ok {s : State} (h : s.zuc.lfsr.length = 17) :
    reset s = Model.ZUCMac.reset s ∧ ∀ s', Model.ZUCMac.reset s = .ok s' → s'.zuc.lfsr.length = 17 ∧ s'.length = 0 ∧ s'.isCheck = s.isCheck := by
  have hs := ZUC.setSlice_ok h s.ck s.iv
  unfold reset Model.ZUCMac.reset
  rw [hs.1]
  refine ⟨rfl, fun s' e => ?_⟩
  cases hx : Model.ZUC.setSlice s.zuc s.ck s.iv with
  | error _ => rw [hx] at e; cases e
  | ok z => rw [hx] at e; cases e; exact ⟨hs.2 z hx, rfl, rfl⟩

/-- `absorb` in the checked build, with the exact condition for the panic. -/
theorem write_ok {s : State} (h : s.zuc.lfsr.length = 17) (hc : s.isCheck = false) (data : Bytes) :
    write s data = (if s.length + data.length * 8 < 2 ^ 64 then Model.ZUCMac.write s data else .error .panic) ∧
    ∀ s', Model.ZUCMac.write s data = .ok s' → s'.zuc.lfsr.length = 17 ∧ s'.length = s.length + data.length * 8 ∧ s'.isCheck = false := by
  have hz := ZUC.zuc_ok h
  have hz' := ZUC.zuc_ok hz.2
  have hl := loop_ok (data := data) (data.length * 8) 0 { s with zuc := (Model.ZUC.zuc (Model.ZUC.zuc s.zuc).2).2, key0 := (Model.ZUC.zuc s.zuc).1, key1 := (Model.ZUC.zuc (Model.ZUC.zuc s.zuc).2).1 } hz'.2 (by omega)
  have hcheck : ∀ (r : List Nat) (s : State), (r.foldl (Model.ZUCMac.step data) s).isCheck = s.isCheck := by
    intro r
    induction r with
    | nil => intro s; rfl
    | cons a r ih =>
      intro s
      rw [List.foldl_cons, ih]
      unfold Model.ZUCMac.step
      simp only []
      split <;> split <;> rfl
  have ha : Model.ZUCMac.write s data = .ok (absorb s data) := by
    unfold Model.ZUCMac.write
    rw [hc]; rfl
  unfold write
  rw [hc]
  simp only [Bool.false_eq_true, if_false, bind_ok]
  rw [hz.1, bind_ok]
  rw [hz'.1, bind_ok]
  rw [hl.1, bind_ok, hl.2.2, ha]
  refine ⟨?_, fun s' e => ?_⟩
  · unfold addN
    split
    · rw [bind_ok]
      unfold absorb
      simp only []
      rw [List.range_eq_range', hl.2.2]
    · rfl
  · injection e with e
    subst e
    unfold absorb
    simp only []
    rw [List.range_eq_range', hl.2.2]
    exact ⟨hl.2.1, rfl, by rw [hcheck]; exact hc⟩

theorem checksum_ok {s : State} (h : s.zuc.lfsr.length = 17) :
    checksum s = Model.ZUCMac.checksum s ∧ ∀ s' t, Model.ZUCMac.checksum s = .ok (s', t) → s'.zuc.lfsr.length = 17 ∧ s'.length = s.length ∧ s'.isCheck = s.isCheck := by
  have hz := ZUC.zuc_ok h
  have h32 : s.length % 32 < 32 := Nat.mod_lt _ (by omega)
  unfold checksum Model.ZUCMac.checksum
  simp only []
  rw [and31]
  by_cases hc : s.isCheck = true
  · rw [if_pos hc, if_pos hc, bind_ok]
    exact ⟨rfl, fun s' t e => by cases e; exact ⟨h, rfl, rfl⟩⟩
  · rw [if_neg hc, if_neg hc]
    by_cases h0 : s.length % 32 = 0
    · rw [if_pos h0, if_pos h0, bind_ok]
      exact ⟨rfl, fun s' t e => by cases e; exact ⟨h, rfl, rfl⟩⟩
    · rw [if_neg h0, if_neg h0, keyWord_ok _ _ h0 h32, bind_ok, hz.1, bind_ok, bind_ok]
      exact ⟨rfl, fun s' t e => by cases e; exact ⟨hz.2, rfl, rfl⟩⟩

theorem fromSlice_ok (c : BitVec 32) (b : Byte) (d : Bool) (ck : Bytes) :
    fromSlice c b d ck = Model.ZUCMac.fromSlice c b d ck ∧
    ∀ s, Model.ZUCMac.fromSlice c b d ck = .ok s → s.zuc.lfsr.length = 17 ∧ s.length = 0 ∧ s.isCheck = false := by
  have hs := ZUC.fromSlice_ok ck (mkIv c b d)
  unfold fromSlice Model.ZUCMac.fromSlice
  by_cases h : ck.length ≠ 16
  · rw [if_pos h, if_pos h]; exact ⟨rfl, fun s e => by cases e⟩
  · rw [if_neg h, if_neg h]
    simp only []
    rw [hs.1]
    refine ⟨rfl, fun s' e => ?_⟩
    cases hx : Model.ZUC.fromSlice ck (mkIv c b d) with
    | error _ => rw [hx] at e; cases e
    | ok z => rw [hx] at e; cases e; exact ⟨hs.2 z hx, rfl, rfl⟩

end ZUCMac

namespace Keccak
open Model.Keccak

theorem minusRemEuclid_ok (a b : Nat) {m : Nat} (h : m ≠ 0) : minusRemEuclid a b m = .ok (Model.Keccak.minusRemEuclid a b m) := by
  unfold minusRemEuclid Model.Keccak.minusRemEuclid
  split
  · rw [subN_ok (by omega), bind_ok, divN_ok _ h, bind_ok]
    simp only []
    have := Nat.mod_lt (b - a) (Nat.pos_of_ne_zero h)
    split
    · exact subN_ok (by omega)
    · rfl
  · rw [subN_ok (by omega), bind_ok, divN_ok _ h, bind_ok]

theorem minusRemEuclid_lt (a b : Nat) {m : Nat} (h : m ≠ 0) : Model.Keccak.minusRemEuclid a b m < m := by
  unfold Model.Keccak.minusRemEuclid
  have h1 := Nat.mod_lt (b - a) (Nat.pos_of_ne_zero h)
  have h2 := Nat.mod_lt (a - b) (Nat.pos_of_ne_zero h)
  split
  · simp only []
    split <;> omega
  · exact h2

theorem xorAt_ok {r : List Bool} {i j : Nat} (hi : i < r.length) (hj : j < r.length) : xorAt r i j = .ok (Model.Keccak.xorAt r i j) := by
  unfold xorAt
  rw [idx_ok false hi, bind_ok, idx_ok false hj, bind_ok, put_ok _ hi]; rfl

theorem xorAt_length (r : List Bool) (i j : Nat) : (Model.Keccak.xorAt r i j).length = r.length := List.length_set

theorem rcLoop_ok : ∀ (count i : Nat) (r : List Bool), 8 ≤ i → i + count ≤ r.length →
    rcLoop count i r = .ok (Model.Keccak.rcLoop count i r) ∧ (Model.Keccak.rcLoop count i r).length = r.length
  | 0, _, _, _, _ => ⟨rfl, rfl⟩
  | count + 1, i, r, h8, h => by
    unfold rcLoop Model.Keccak.rcLoop
    simp only []
    have ih := rcLoop_ok count (i + 1) (Model.Keccak.xorAt (Model.Keccak.xorAt (Model.Keccak.xorAt (Model.Keccak.xorAt r i (i - 8)) (i - 4) (i - 8)) (i - 5) (i - 8)) (i - 6) (i - 8))
      (by omega) (by simp only [xorAt_length]; omega)
    rw [subN_ok h8, bind_ok, xorAt_ok (by omega) (by omega), bind_ok, subN_ok (by omega), bind_ok,
      xorAt_ok (by rw [xorAt_length]; omega) (by rw [xorAt_length]; omega), bind_ok, subN_ok (by omega), bind_ok,
      xorAt_ok (by simp only [xorAt_length]; omega) (by simp only [xorAt_length]; omega), bind_ok, subN_ok (by omega), bind_ok,
      xorAt_ok (by simp only [xorAt_length]; omega) (by simp only [xorAt_length]; omega), bind_ok]
    exact ⟨ih.1, by rw [ih.2]; simp only [xorAt_length]⟩

theorem rc_ok (t : Int) : rc t = .ok (Model.Keccak.rc t) := by
  have key : ∀ n, n < 255 → (if n = 0 then .ok true
      else do
        let r ← put (List.replicate (7 + 255) false) 7 true
        let last ← addN 64 7 n
        let count ← subN last 7
        let r ← rcLoop count 8 r
        idx r last : Res Bool) = .ok (rcBit n) := by
    intro n hn
    unfold rcBit
    by_cases h0 : n = 0
    · rw [if_pos h0, if_pos h0]
    · rw [if_neg h0, if_neg h0]
      have hr := rcLoop_ok n 8 ((List.replicate (7 + 255) false).set 7 true) (by omega) (by rw [List.length_set, List.length_replicate]; omega)
      rw [put_ok _ (by rw [List.length_replicate]; omega), bind_ok, addN_ok (by omega), bind_ok, subN_ok (by omega), bind_ok, Nat.add_sub_cancel_left, hr.1, bind_ok,
        idx_ok false (by rw [hr.2, List.length_set, List.length_replicate]; omega)]
  have hx : (if t ≥ 0 then minusRemEuclid (t % 2 ^ 32).toNat 0 255 else minusRemEuclid 0 (t % 2 ^ 32).toNat 255 : Res Nat)
      = .ok (if t ≥ 0 then Model.Keccak.minusRemEuclid (t % 2 ^ 32).toNat 0 255 else Model.Keccak.minusRemEuclid 0 (t % 2 ^ 32).toNat 255) := by
    split <;> exact minusRemEuclid_ok _ _ (by omega)
  unfold rc
  rw [hx, bind_ok, key]
  · unfold Model.Keccak.rc
    split <;> rfl
  · split <;> exact minusRemEuclid_lt _ _ (by omega)

theorem iotaConst_ok {ri : Int} (h1 : -2 ^ 40 ≤ ri) (h2 : ri ≤ 2 ^ 40) : ∀ (count j : Nat) (a : List Bool), j + count ≤ 7 → a.length = 64 →
    iotaConst ri count j a = .ok (Model.Keccak.iotaConst ri count j a)
  | 0, _, _, _, _ => rfl
  | count + 1, j, a, hj, ha => by
    unfold iotaConst Model.Keccak.iotaConst
    have hone : ∀ j, j < 7 → ((1#64 : BitVec 64) <<< j).toNat = 2 ^ j := by decide
    have hle : 2 ^ j ≤ 2 ^ 6 := Nat.pow_le_pow_right (by omega) (by omega)
    have hpos : 1 ≤ 2 ^ j := Nat.one_le_two_pow
    rw [i64_ok (by omega), bind_ok, i64_ok (by omega), bind_ok, rc_ok, bind_ok, shl_ok _ (by omega), bind_ok, hone j (by omega), subN_ok hpos, bind_ok,
      put_ok _ (by omega), bind_ok]
    exact iotaConst_ok h1 h2 count (j + 1) _ (by omega) (by rw [List.length_set, ha])

theorem roundRange_ok {l nr : Nat} (hl : l ≤ 6) (hn : nr < 2 ^ 32) : roundRange l nr = .ok (12 + 2 * (l : Int) - nr, 12 + 2 * (l : Int) - 1) := by
  unfold roundRange
  rw [i64_ok (by omega), bind_ok, i64_ok (by omega), bind_ok, i64_ok (by omega), bind_ok, i64_ok (by omega), bind_ok]

end Keccak

end Verif.Model.Checked
