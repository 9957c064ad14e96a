import Verif.Proof.ReadsKey

/-! Helper lemmas for C99: SM4 and DES -/

namespace Verif.Model.Reads

section SM4
open Verif.Model.SM4

theorem fTauL_evs (x : BitVec 32) : (fTauL x).evs = reads (List.replicate 4 .sm4) [byteBe x 0, byteBe x 1, byteBe x 2, byteBe x 3] := rfl
theorem fTauL_val (x : BitVec 32) : (fTauL x).val = fTau x := rfl

theorem fTauL_len (x y : BitVec 32) : (fTauL x).evs.length = (fTauL y).evs.length := by
  rw [fTauL_evs, fTauL_evs]
  simp [reads]

theorem fTauL_inj {x y : BitVec 32} (h : (fTauL x).evs = (fTauL y).evs) : x = y := by
  rw [fTauL_evs, fTauL_evs] at h
  have h := reads_inj _ _ _ rfl rfl h
  simp only [List.cons.injEq, and_true] at h
  exact word_ext h.1 h.2.1 h.2.2.1 h.2.2.2

theorem edLoopL_val (rk : Nat → BitVec 32) : ∀ (count i : Nat) (x : List (BitVec 32)), (edLoopL rk count i x).val = edLoop rk count i x
  | 0, _, _ => rfl
  | count + 1, i, x => by rw [edLoopL, val_bind, edLoopL_val rk count, fTauL_val]; rfl

theorem sm4SchedL_val : ∀ (count i : Nat) (k : List (BitVec 32)), (sm4SchedL count i k).val = SM4.schedLoop count i k
  | 0, _, _ => rfl
  | count + 1, i, k => by rw [sm4SchedL, val_bind, sm4SchedL_val count, fTauL_val]; rfl

theorem edLoopL_tab (rk : Nat → BitVec 32) : ∀ (count i : Nat) (x : List (BitVec 32)),
    ((edLoopL rk count i x).evs).map Read.tab = List.replicate (4 * count) .sm4
  | 0, _, _ => rfl
  | count + 1, i, x => by
    rw [edLoopL, evs_bind, List.map_append, edLoopL_tab rk count, show 4 * (count + 1) = 4 + 4 * count by omega, List.replicate_add]
    rfl

theorem sm4SchedL_tab : ∀ (count i : Nat) (k : List (BitVec 32)), ((sm4SchedL count i k).evs).map Read.tab = List.replicate (4 * count) .sm4
  | 0, _, _ => rfl
  | count + 1, i, k => by
    rw [sm4SchedL, evs_bind, List.map_append, sm4SchedL_tab count, show 4 * (count + 1) = 4 + 4 * count by omega, List.replicate_add]
    rfl

theorem edLoopL_inj (rk rk' : Nat → BitVec 32) : ∀ (count i : Nat) (x : List (BitVec 32)),
    (edLoopL rk count i x).evs = (edLoopL rk' count i x).evs → ∀ j, i ≤ j → j < i + count → rk j = rk' j
  | 0, _, _, _, j, h1, h2 => by omega
  | count + 1, i, x, h, j, h1, h2 => by
    rw [edLoopL, edLoopL, evs_bind, evs_bind] at h
    obtain ⟨e1, e2⟩ := List.append_inj h (fTauL_len _ _)
    have e := fTauL_inj e1
    rw [← e] at e2
    rcases Nat.eq_or_lt_of_le h1 with rfl | hlt
    · rw [BitVec.xor_comm _ (rk i), BitVec.xor_comm _ (rk' i)] at e
      exact xor_left_cancel e
    · exact edLoopL_inj rk rk' count (i + 1) _ e2 j (by omega) (by omega)

theorem edInnerL_val (b : Bytes) (rk : Nat → BitVec 32) (hb : b.length = 16) : edInner b rk = .ok (edInnerL b rk).val := by
  rw [edInner, if_neg (by omega), edInnerL, val_bind, edLoopL_val]
  rfl

theorem edInnerL_inj {b : Bytes} {rk rk' : Nat → BitVec 32} (h : (edInnerL b rk).evs = (edInnerL b rk').evs) (j : Nat) (hj : j < 32) : rk j = rk' j := by
  rw [edInnerL, edInnerL, evs_bind, evs_bind, evs_pure, evs_pure, List.append_nil, List.append_nil] at h
  exact edLoopL_inj rk rk' 32 0 _ h j (by omega) (by omega)

theorem edInnerL_tab (b : Bytes) (rk : Nat → BitVec 32) : ((edInnerL b rk).evs).map Read.tab = List.replicate 128 .sm4 := by
  rw [edInnerL, evs_bind, evs_pure, List.append_nil, edLoopL_tab]

theorem seq_back {f : BitVec 32 → BitVec 32} {k x x' : Nat → BitVec 32} {n : Nat}
    (h4 : Spec.SM4.seq f k x (n + 4) = Spec.SM4.seq f k x' (n + 4)) (h1 : Spec.SM4.seq f k x (n + 1) = Spec.SM4.seq f k x' (n + 1))
    (h2 : Spec.SM4.seq f k x (n + 2) = Spec.SM4.seq f k x' (n + 2)) (h3 : Spec.SM4.seq f k x (n + 3) = Spec.SM4.seq f k x' (n + 3)) :
    Spec.SM4.seq f k x n = Spec.SM4.seq f k x' n := by
  rw [Spec.SM4.seq, Spec.SM4.seq, h1, h2, h3] at h4
  exact xor_left_cancel h4

theorem sm4_words {key key' : Bytes} (h : key.length = 16) (h' : key'.length = 16) (e : ∀ i < 4, Spec.SM4.word key i = Spec.SM4.word key' i) : key = key' := by
  rw [← Spec.SM4.be32_word key h, ← Spec.SM4.be32_word key' h', e 0 (by omega), e 1 (by omega), e 2 (by omega), e 3 (by omega)]

theorem roundKey_key {key key' : Bytes} (h : key.length = 16) (h' : key'.length = 16)
    (e : ∀ i < 4, Spec.SM4.roundKey key i = Spec.SM4.roundKey key' i) : key = key' := by
  have e3 := seq_back (n := 3) (e 3 (by omega)) (e 0 (by omega)) (e 1 (by omega)) (e 2 (by omega))
  have e2 := seq_back (n := 2) (e 2 (by omega)) e3 (e 0 (by omega)) (e 1 (by omega))
  have e1 := seq_back (n := 1) (e 1 (by omega)) e2 e3 (e 0 (by omega))
  have e0 := seq_back (n := 0) (e 0 (by omega)) e1 e2 e3
  refine sm4_words h h' fun i hi => ?_
  match i, hi with
  | 0, _ => exact xor_left_cancel e0
  | 1, _ => exact xor_left_cancel e1
  | 2, _ => exact xor_left_cancel e2
  | 3, _ => exact xor_left_cancel e3

theorem bool_words : ∀ a b c d a' b' c' d' : Bool, (b ^^ c ^^ d) = (b' ^^ c' ^^ d') → (c ^^ d ^^ a) = (c' ^^ d' ^^ a') → (d ^^ a ^^ b) = (d' ^^ a' ^^ b') →
    (a ^^ b ^^ c) = (a' ^^ b' ^^ c') → a = a' ∧ b = b' ∧ c = c' ∧ d = d' := by decide

theorem xor_words {a b c d a' b' c' d' : BitVec 32} (h0 : b ^^^ c ^^^ d = b' ^^^ c' ^^^ d') (h1 : c ^^^ d ^^^ a = c' ^^^ d' ^^^ a')
    (h2 : d ^^^ a ^^^ b = d' ^^^ a' ^^^ b') (h3 : a ^^^ b ^^^ c = a' ^^^ b' ^^^ c') : a = a' ∧ b = b' ∧ c = c' ∧ d = d' := by
  have key : ∀ i, a.getLsbD i = a'.getLsbD i ∧ b.getLsbD i = b'.getLsbD i ∧ c.getLsbD i = c'.getLsbD i ∧ d.getLsbD i = d'.getLsbD i := by
    intro i
    have e0 := congrArg (·.getLsbD i) h0
    have e1 := congrArg (·.getLsbD i) h1
    have e2 := congrArg (·.getLsbD i) h2
    have e3 := congrArg (·.getLsbD i) h3
    simp only [BitVec.getLsbD_xor] at e0 e1 e2 e3
    exact bool_words _ _ _ _ _ _ _ _ e0 e1 e2 e3
  exact ⟨BitVec.eq_of_getLsbD_eq fun i _ => (key i).1, BitVec.eq_of_getLsbD_eq fun i _ => (key i).2.1,
    BitVec.eq_of_getLsbD_eq fun i _ => (key i).2.2.1, BitVec.eq_of_getLsbD_eq fun i _ => (key i).2.2.2⟩

theorem sm4SchedL_step (count i : Nat) (k : List (BitVec 32)) : (sm4SchedL (count + 1) i k).evs =
    (fTauL (k.getD (i + 1) 0#32 ^^^ k.getD (i + 2) 0#32 ^^^ k.getD (i + 3) 0#32 ^^^ ck.getD i 0#32)).evs ++
    (sm4SchedL count (i + 1) (k ++ [k.getD i 0#32 ^^^ fLb (fTau (k.getD (i + 1) 0#32 ^^^ k.getD (i + 2) 0#32 ^^^ k.getD (i + 3) 0#32 ^^^ ck.getD i 0#32))])).evs := rfl

theorem sm4SchedL_step_inj {count i : Nat} {k k' : List (BitVec 32)} (h : (sm4SchedL (count + 1) i k).evs = (sm4SchedL (count + 1) i k').evs) :
    ∃ x, k.getD (i + 1) 0#32 ^^^ k.getD (i + 2) 0#32 ^^^ k.getD (i + 3) 0#32 ^^^ ck.getD i 0#32 =
        k'.getD (i + 1) 0#32 ^^^ k'.getD (i + 2) 0#32 ^^^ k'.getD (i + 3) 0#32 ^^^ ck.getD i 0#32 ∧
      (sm4SchedL count (i + 1) (k ++ [k.getD i 0#32 ^^^ x])).evs = (sm4SchedL count (i + 1) (k' ++ [k'.getD i 0#32 ^^^ x])).evs := by
  have h : _ ++ _ = _ ++ _ := (sm4SchedL_step count i k).symm.trans (h.trans (sm4SchedL_step count i k'))
  obtain ⟨e0, h⟩ := List.append_inj h (fTauL_len _ _)
  have e0 := fTauL_inj e0
  rw [← e0] at h
  exact ⟨_, e0, h⟩

/-- The first four turns of the key schedule give the four words away. -/
theorem sm4SchedL_inj {a b c d a' b' c' d' : BitVec 32} {count : Nat}
    (h : (sm4SchedL (count + 4) 0 [a, b, c, d]).evs = (sm4SchedL (count + 4) 0 [a', b', c', d']).evs) : a = a' ∧ b = b' ∧ c = c' ∧ d = d' := by
  obtain ⟨x0, e0, h⟩ := sm4SchedL_step_inj h
  obtain ⟨x1, e1, h⟩ := sm4SchedL_step_inj h
  obtain ⟨x2, e2, h⟩ := sm4SchedL_step_inj h
  obtain ⟨x3, e3, -⟩ := sm4SchedL_step_inj h
  generalize ck.getD 0 0#32 = c0 at e0
  generalize ck.getD (0 + 1) 0#32 = c1 at e1
  generalize ck.getD (0 + 1 + 1) 0#32 = c2 at e2
  generalize ck.getD (0 + 1 + 1 + 1) 0#32 = c3 at e3
  change b ^^^ c ^^^ d ^^^ c0 = b' ^^^ c' ^^^ d' ^^^ c0 at e0
  change c ^^^ d ^^^ (a ^^^ x0) ^^^ c1 = c' ^^^ d' ^^^ (a' ^^^ x0) ^^^ c1 at e1
  change d ^^^ (a ^^^ x0) ^^^ (b ^^^ x1) ^^^ c2 = d' ^^^ (a' ^^^ x0) ^^^ (b' ^^^ x1) ^^^ c2 at e2
  change (a ^^^ x0) ^^^ (b ^^^ x1) ^^^ (c ^^^ x2) ^^^ c3 = (a' ^^^ x0) ^^^ (b' ^^^ x1) ^^^ (c' ^^^ x2) ^^^ c3 at e3
  refine xor_words (xor_left_cancel e0) (xor_left_cancel (c := x0 ^^^ c1) ?_) (xor_left_cancel (c := x0 ^^^ x1 ^^^ c2) ?_)
    (xor_left_cancel (c := x0 ^^^ x1 ^^^ x2 ^^^ c3) ?_)
  · calc _ = c ^^^ d ^^^ (a ^^^ x0) ^^^ c1 := by ac_rfl
      _ = _ := e1
      _ = _ := by ac_rfl
  · calc _ = d ^^^ (a ^^^ x0) ^^^ (b ^^^ x1) ^^^ c2 := by ac_rfl
      _ = _ := e2
      _ = _ := by ac_rfl
  · calc _ = (a ^^^ x0) ^^^ (b ^^^ x1) ^^^ (c ^^^ x2) ^^^ c3 := by ac_rfl
      _ = _ := e3
      _ = _ := by ac_rfl

theorem newSM4_some {key : Bytes} {l : Log SM4} (h : newSM4 key = some l) : key.length = 16 ∧ SM4.fromSlice key = .ok l.val ∧
    l.evs = (sm4SchedL 32 0 (List.zipWith (· ^^^ ·) (words key) fk)).evs := by
  unfold newSM4 at h
  split at h
  · cases h
  · rename_i hl
    injection h with h
    subst h
    refine ⟨by omega, ?_, ?_⟩
    · rw [fromSlice, if_neg hl, val_bind, val_pure, sm4SchedL_val]
      rfl
    · rw [evs_bind, evs_pure, List.append_nil]

theorem sched_start (key : Bytes) : List.zipWith (· ^^^ ·) (words key) fk = [Spec.SM4.word key 0 ^^^ fk.getD 0 0#32, Spec.SM4.word key 1 ^^^ fk.getD 1 0#32,
    Spec.SM4.word key 2 ^^^ fk.getD 2 0#32, Spec.SM4.word key 3 ^^^ fk.getD 3 0#32] := by
  rw [← words_eq key 0 (by omega), ← words_eq key 1 (by omega), ← words_eq key 2 (by omega), ← words_eq key 3 (by omega)]
  rfl

theorem newSM4_inj {key key' : Bytes} {l l' : Log SM4} (h : newSM4 key = some l) (h' : newSM4 key' = some l') (e : l.evs = l'.evs) : key = key' := by
  obtain ⟨k, -, e1⟩ := newSM4_some h
  obtain ⟨k', -, e1'⟩ := newSM4_some h'
  rw [e1, e1', sched_start, sched_start] at e
  obtain ⟨a, b, c, d⟩ := sm4SchedL_inj (count := 28) e
  refine sm4_words k k' fun i hi => ?_
  match i, hi with
  | 0, _ => exact xor_left_cancel a
  | 1, _ => exact xor_left_cancel b
  | 2, _ => exact xor_left_cancel c
  | 3, _ => exact xor_left_cancel d

theorem fromSlice_ok {key : Bytes} {s : SM4} (h : SM4.fromSlice key = .ok s) : key.length = 16 ∧ ∀ i < 32, s.rk.getD i 0#32 = Spec.SM4.roundKey key i := by
  unfold fromSlice at h
  split at h
  · cases h
  · injection h with h
    subst h
    exact ⟨by omega, fun i hi => rk_eq key i hi⟩

end SM4

section DES
open Verif.Model.DES

theorem fSboxL_val (t : BitVec 64) : (fSboxL t).val = fSbox t := rfl
theorem feistelL_val (r k : BitVec 64) : (feistelL r k).val = feistel r k := rfl

theorem desRoundsL_val (k : Nat → BitVec 64) : ∀ (count i : Nat) (lr : BitVec 64 × BitVec 64), (desRoundsL k count i lr).val = rounds k count i lr
  | 0, _, _ => rfl
  | count + 1, i, (l, r) => by
    rw [desRoundsL, val_bind, desRoundsL_val k count, feistelL_val]
    rfl

theorem cryptDES_val (d : DES) (b : Bytes) (e : Bool) : (cryptDES d b e).val = cryptBlock d b e := by
  rw [cryptDES, val_bind, val_pure, desRoundsL_val, cryptBlock]
  cases e <;> rfl

/-- The index of a group of six bits. -/
def ix (b : Fin 6 → Bool) : Nat :=
  16 * (2 * (b 0).toNat + (b 5).toNat) + (8 * (b 1).toNat + 4 * (b 2).toNat + 2 * (b 3).toNat + (b 4).toNat)

theorem ix_inj {b b' : Fin 6 → Bool} (h : ix b = ix b') : b = b' := by
  have lt : ∀ b : Bool, b.toNat < 2 := by decide
  have inj : ∀ a b : Bool, a.toNat = b.toNat → a = b := by decide
  unfold ix at h
  have := lt (b 0); have := lt (b 1); have := lt (b 2); have := lt (b 3); have := lt (b 4); have := lt (b 5)
  have := lt (b' 0); have := lt (b' 1); have := lt (b' 2); have := lt (b' 3); have := lt (b' 4); have := lt (b' 5)
  have h0 := inj (b 0) (b' 0) (by omega)
  have h1 := inj (b 1) (b' 1) (by omega)
  have h2 := inj (b 2) (b' 2) (by omega)
  have h3 := inj (b 3) (b' 3) (by omega)
  have h4 := inj (b 4) (b' 4) (by omega)
  have h5 := inj (b 5) (b' 5) (by omega)
  funext i
  match i with
  | 0 => exact h0
  | 1 => exact h1
  | 2 => exact h2
  | 3 => exact h3
  | 4 => exact h4
  | 5 => exact h5

theorem sboxIdx_six (t : BitVec 64) (j : Nat) (b : Byte) (h6 : b.getLsbD 6 = false) (h7 : b.getLsbD 7 = false)
    (h0 : b.getLsbD 0 = t.getLsbD (sig (6 * j + 5))) (h1 : b.getLsbD 1 = t.getLsbD (sig (6 * j + 4)))
    (h2 : b.getLsbD 2 = t.getLsbD (sig (6 * j + 3))) (h3 : b.getLsbD 3 = t.getLsbD (sig (6 * j + 2)))
    (h4 : b.getLsbD 4 = t.getLsbD (sig (6 * j + 1))) (h5 : b.getLsbD 5 = t.getLsbD (sig (6 * j))) : sboxIdx b = ix (six t j) := by
  rw [sboxIdx_ok b h6 h7, h0, h1, h2, h3, h4, h5]; rfl

/-- The tables of a round. -/
def desTabs : List Tab := [.des 0, .des 1, .des 2, .des 3, .des 4, .des 5, .des 6, .des 7]

theorem fSboxL_evs (t : BitVec 64) : (fSboxL t).evs = [⟨.des 0, ix (six t 0)⟩, ⟨.des 1, ix (six t 1)⟩, ⟨.des 2, ix (six t 2)⟩, ⟨.des 3, ix (six t 3)⟩,
    ⟨.des 4, ix (six t 4)⟩, ⟨.des 5, ix (six t 5)⟩, ⟨.des 6, ix (six t 6)⟩, ⟨.des 7, ix (six t 7)⟩] := by
  unfold fSboxL
  simp only [add4, add2, evs_bind, sAtL, evs_pure, List.cons_append, List.nil_append]
  rw [sboxIdx_six t 0, sboxIdx_six t 1, sboxIdx_six t 2, sboxIdx_six t 3, sboxIdx_six t 4, sboxIdx_six t 5, sboxIdx_six t 6, sboxIdx_six t 7]
  all_goals simp [sig, -List.getD_eq_getElem?_getD, -BitVec.getLsbD_eq_getElem, byte_bit]

theorem fSboxL_inj {t t' : BitVec 64} (h : (fSboxL t).evs = (fSboxL t').evs) : bits 48 t = bits 48 t' := by
  rw [fSboxL_evs, fSboxL_evs] at h
  simp only [List.cons.injEq, Read.mk.injEq, true_and, and_true] at h
  obtain ⟨h0, h1, h2, h3, h4, h5, h6, h7⟩ := h
  funext i
  have hi := i.isLt
  have key : six t (i.val / 6) = six t' (i.val / 6) := by
    have : i.val / 6 < 8 := by omega
    match i.val / 6, this with
    | 0, _ => exact ix_inj h0
    | 1, _ => exact ix_inj h1
    | 2, _ => exact ix_inj h2
    | 3, _ => exact ix_inj h3
    | 4, _ => exact ix_inj h4
    | 5, _ => exact ix_inj h5
    | 6, _ => exact ix_inj h6
    | 7, _ => exact ix_inj h7
  have := congrFun key ⟨i.val % 6, by omega⟩
  simp only [six, show 6 * (i.val / 6) + i.val % 6 = i.val by omega] at this
  exact this

theorem fSbox_congr {t t' : BitVec 64} (h : bits 48 t = bits 48 t') : fSboxL t = fSboxL t' := by
  have key : ∀ j < 8, six t j = six t' j := by
    intro j hj
    funext k
    exact congrFun h ⟨6 * j + k.val, by omega⟩
  have e1 : fSbox t = fSbox t' := by
    rw [fSbox_eq, fSbox_eq, key 0 (by omega), key 1 (by omega), key 2 (by omega), key 3 (by omega), key 4 (by omega), key 5 (by omega),
      key 6 (by omega), key 7 (by omega)]
  have e2 : (fSboxL t).evs = (fSboxL t').evs := by
    rw [fSboxL_evs, fSboxL_evs, key 0 (by omega), key 1 (by omega), key 2 (by omega), key 3 (by omega), key 4 (by omega), key 5 (by omega),
      key 6 (by omega), key 7 (by omega)]
  show Log.mk (fSboxL t).val (fSboxL t).evs = Log.mk (fSboxL t').val (fSboxL t').evs
  rw [fSboxL_val, fSboxL_val, e1, e2]

theorem feistelL_evs (r k : BitVec 64) : (feistelL r k).evs = (fSboxL (fExpand r ^^^ k)).evs := by
  rw [feistelL, evs_bind, evs_pure, List.append_nil]

theorem bits_cancel {r k k' : BitVec 64} : bits 48 (r ^^^ k) = bits 48 (r ^^^ k') ↔ bits 48 k = bits 48 k' := by
  rw [bits_xor, bits_xor]
  constructor
  · intro h
    funext i
    have := congrFun h i
    simpa [Spec.DES.xor] using this
  · intro h; rw [h]

theorem desRoundsL_iff (k k' : Nat → BitVec 64) : ∀ (count i : Nat) (lr : BitVec 64 × BitVec 64),
    (desRoundsL k count i lr).evs = (desRoundsL k' count i lr).evs ↔ ∀ j, i ≤ j → j < i + count → bits 48 (k j) = bits 48 (k' j)
  | 0, i, lr => ⟨fun _ j h1 h2 => by omega, fun _ => rfl⟩
  | count + 1, i, (l, r) => by
    rw [desRoundsL, desRoundsL, evs_bind, evs_bind]
    constructor
    · intro h j h1 h2
      obtain ⟨e1, e2⟩ := List.append_inj h (by rw [feistelL_evs, feistelL_evs, fSboxL_evs, fSboxL_evs]; simp only [List.length_cons])
      rw [feistelL_evs, feistelL_evs] at e1
      have e := fSboxL_inj e1
      rcases Nat.eq_or_lt_of_le h1 with rfl | hlt
      · exact bits_cancel.1 e
      · rw [feistelL, feistelL, fSbox_congr e] at e2
        exact (desRoundsL_iff k k' count (i + 1) _).1 e2 j (by omega) (by omega)
    · intro h
      have e : bits 48 (fExpand r ^^^ k i) = bits 48 (fExpand r ^^^ k' i) := bits_cancel.2 (h i (by omega) (by omega))
      have e' : feistelL r (k i) = feistelL r (k' i) := by rw [feistelL, feistelL, fSbox_congr e]
      rw [e', (desRoundsL_iff k k' count (i + 1) _).2 fun j h1 h2 => h j (by omega) (by omega)]

theorem desRoundsL_tab (k : Nat → BitVec 64) : ∀ (count i : Nat) (lr : BitVec 64 × BitVec 64),
    ((desRoundsL k count i lr).evs).map Read.tab = (List.replicate count desTabs).flatten
  | 0, _, _ => rfl
  | count + 1, i, (l, r) => by
    rw [desRoundsL, evs_bind, List.map_append, desRoundsL_tab k count, feistelL_evs, fSboxL_evs]
    rfl

theorem cryptDES_tab (d : DES) (b : Bytes) (e : Bool) : ((cryptDES d b e).evs).map Read.tab = (List.replicate 16 desTabs).flatten := by
  rw [cryptDES, evs_bind, evs_pure, List.append_nil, desRoundsL_tab]

/-- Where each bit of the key occurs in the first two round keys. -/
theorem key_pos (i : Fin 64) (hi : i.val % 8 ≠ 7) : ∃ n : Fin 2, ∃ m : Fin 48, ∀ x : Spec.DES.Bits 64, Spec.DES.roundKey x (n.val + 1) m = x i :=
    match i, hi with
    | ⟨0, _⟩, _ => ⟨0, 19, fun _ => rfl⟩
    | ⟨1, _⟩, _ => ⟨0, 8, fun _ => rfl⟩
    | ⟨2, _⟩, _ => ⟨0, 12, fun _ => rfl⟩
    | ⟨3, _⟩, _ => ⟨0, 29, fun _ => rfl⟩
    | ⟨4, _⟩, _ => ⟨0, 32, fun _ => rfl⟩
    | ⟨5, _⟩, _ => ⟨1, 43, fun _ => rfl⟩
    | ⟨6, _⟩, _ => ⟨1, 40, fun _ => rfl⟩
    | ⟨7, _⟩, h => by simp at h
    | ⟨8, _⟩, _ => ⟨0, 9, fun _ => rfl⟩
    | ⟨9, _⟩, _ => ⟨0, 0, fun _ => rfl⟩
    | ⟨10, _⟩, _ => ⟨1, 10, fun _ => rfl⟩
    | ⟨11, _⟩, _ => ⟨1, 41, fun _ => rfl⟩
    | ⟨12, _⟩, _ => ⟨0, 44, fun _ => rfl⟩
    | ⟨13, _⟩, _ => ⟨0, 43, fun _ => rfl⟩
    | ⟨14, _⟩, _ => ⟨0, 40, fun _ => rfl⟩
    | ⟨15, _⟩, h => by simp at h
    | ⟨16, _⟩, _ => ⟨0, 5, fun _ => rfl⟩
    | ⟨17, _⟩, _ => ⟨0, 22, fun _ => rfl⟩
    | ⟨18, _⟩, _ => ⟨0, 10, fun _ => rfl⟩
    | ⟨19, _⟩, _ => ⟨0, 41, fun _ => rfl⟩
    | ⟨20, _⟩, _ => ⟨0, 37, fun _ => rfl⟩
    | ⟨21, _⟩, _ => ⟨0, 24, fun _ => rfl⟩
    | ⟨22, _⟩, _ => ⟨0, 34, fun _ => rfl⟩
    | ⟨23, _⟩, h => by simp at h
    | ⟨24, _⟩, _ => ⟨0, 15, fun _ => rfl⟩
    | ⟨25, _⟩, _ => ⟨0, 14, fun _ => rfl⟩
    | ⟨26, _⟩, _ => ⟨0, 21, fun _ => rfl⟩
    | ⟨27, _⟩, _ => ⟨0, 25, fun _ => rfl⟩
    | ⟨28, _⟩, _ => ⟨0, 35, fun _ => rfl⟩
    | ⟨29, _⟩, _ => ⟨0, 31, fun _ => rfl⟩
    | ⟨30, _⟩, _ => ⟨0, 47, fun _ => rfl⟩
    | ⟨31, _⟩, h => by simp at h
    | ⟨32, _⟩, _ => ⟨0, 6, fun _ => rfl⟩
    | ⟨33, _⟩, _ => ⟨0, 2, fun _ => rfl⟩
    | ⟨34, _⟩, _ => ⟨0, 13, fun _ => rfl⟩
    | ⟨35, _⟩, _ => ⟨0, 20, fun _ => rfl⟩
    | ⟨36, _⟩, _ => ⟨0, 28, fun _ => rfl⟩
    | ⟨37, _⟩, _ => ⟨0, 38, fun _ => rfl⟩
    | ⟨38, _⟩, _ => ⟨0, 26, fun _ => rfl⟩
    | ⟨39, _⟩, h => by simp at h
    | ⟨40, _⟩, _ => ⟨0, 23, fun _ => rfl⟩
    | ⟨41, _⟩, _ => ⟨0, 11, fun _ => rfl⟩
    | ⟨42, _⟩, _ => ⟨1, 1, fun _ => rfl⟩
    | ⟨43, _⟩, _ => ⟨0, 16, fun _ => rfl⟩
    | ⟨44, _⟩, _ => ⟨0, 42, fun _ => rfl⟩
    | ⟨45, _⟩, _ => ⟨1, 27, fun _ => rfl⟩
    | ⟨46, _⟩, _ => ⟨0, 30, fun _ => rfl⟩
    | ⟨47, _⟩, h => by simp at h
    | ⟨48, _⟩, _ => ⟨0, 4, fun _ => rfl⟩
    | ⟨49, _⟩, _ => ⟨1, 17, fun _ => rfl⟩
    | ⟨50, _⟩, _ => ⟨0, 1, fun _ => rfl⟩
    | ⟨51, _⟩, _ => ⟨1, 3, fun _ => rfl⟩
    | ⟨52, _⟩, _ => ⟨0, 33, fun _ => rfl⟩
    | ⟨53, _⟩, _ => ⟨0, 27, fun _ => rfl⟩
    | ⟨54, _⟩, _ => ⟨0, 46, fun _ => rfl⟩
    | ⟨55, _⟩, h => by simp at h
    | ⟨56, _⟩, _ => ⟨0, 7, fun _ => rfl⟩
    | ⟨57, _⟩, _ => ⟨0, 17, fun _ => rfl⟩
    | ⟨58, _⟩, _ => ⟨0, 18, fun _ => rfl⟩
    | ⟨59, _⟩, _ => ⟨0, 3, fun _ => rfl⟩
    | ⟨60, _⟩, _ => ⟨0, 36, fun _ => rfl⟩
    | ⟨61, _⟩, _ => ⟨0, 45, fun _ => rfl⟩
    | ⟨62, _⟩, _ => ⟨0, 39, fun _ => rfl⟩
    | ⟨63, _⟩, h => by simp at h
    | ⟨n + 64, h⟩, _ => absurd h (by omega)

theorem roundKey_bits {x y : Spec.DES.Bits 64} (h : ∀ i < 16, Spec.DES.roundKey x (i + 1) = Spec.DES.roundKey y (i + 1)) (i : Fin 64) (hi : i.val % 8 ≠ 7) :
    x i = y i := by
  obtain ⟨n, m, e⟩ := key_pos i hi
  rw [← e x, ← e y, h n.val (by omega)]

end DES
end Verif.Model.Reads

namespace Verif.Model.Reads

section AES
open Verif.Model.AES

theorem take_append {α : Type} (a b : List α) (n : Nat) (h : a.length = n) : (a ++ b).take n = a := by
  rw [List.take_append_of_le_length (by omega), List.take_of_length_le (by omega)]

theorem first_reads {key b : Bytes} {a : AES} (h : AES.new key = .ok a) (hb : b.length = 16) :
    (encryptAES a b).evs.take 16 = (List.range 16).map fun i => ⟨.te (i % 4), (b.getD (5 * i % 16) 0#8 ^^^ key.getD (5 * i % 16) 0#8).toNat⟩ := by
  obtain ⟨l, l4, l8, l6⟩ := nr_len h
  obtain ⟨-, e1, ag, -⟩ := new_spec key a h
  rw [show key.length / 4 = a.nr - 6 by omega] at ag
  have word : ∀ c (hc : c < 4) (r : Fin 4), byteBe (a.encKs.getD c 0#32) r.val = key.getD (4 * c + r.val) 0#8 := by
    intro c hc r
    have := congrFun (ag c (by omega)) r
    rw [Spec.AES.keyExpansion.eq_1, dif_pos (by omega)] at this
    exact this
  have blk : ∀ c (hc : c < 4) (r : Fin 4), byteBe ((beWords b).getD c 0#32) r.val = b.getD (4 * c + r.val) 0#8 := by
    intro c hc r
    exact congrFun (col_beWords b c (by omega)) r
  have both : ∀ c (hc : c < 4) (r : Fin 4), byteBe ((beWords b).getD c 0#32 ^^^ a.encKs.getD c 0#32) r.val =
      b.getD (4 * c + r.val) 0#8 ^^^ key.getD (4 * c + r.val) 0#8 := by
    intro c hc r
    rw [byteBe_xor, word c hc, blk c hc]
  rw [encryptAES, evs_bind, evs_pure, List.append_nil, show a.nr - 1 = (a.nr - 2) + 1 by omega, roundsL, evs_bind, encRoundL_evs, take_append _ _ 16 (by rfl)]
  have e : encIdx (addKey (load b) (keyQuad a.encKs 0)) = (List.range 16).map fun i => b.getD (5 * i % 16) 0#8 ^^^ key.getD (5 * i % 16) 0#8 := by
    have b00 := both 0 (by omega) 0; have b01 := both 0 (by omega) 1; have b02 := both 0 (by omega) 2; have b03 := both 0 (by omega) 3
    have b10 := both 1 (by omega) 0; have b11 := both 1 (by omega) 1; have b12 := both 1 (by omega) 2; have b13 := both 1 (by omega) 3
    have b20 := both 2 (by omega) 0; have b21 := both 2 (by omega) 1; have b22 := both 2 (by omega) 2; have b23 := both 2 (by omega) 3
    have b30 := both 3 (by omega) 0; have b31 := both 3 (by omega) 1; have b32 := both 3 (by omega) 2; have b33 := both 3 (by omega) 3
    have k0 : (addKey (load b) (keyQuad a.encKs 0)).s0 = (beWords b).getD 0 0#32 ^^^ a.encKs.getD 0 0#32 := rfl
    have k1 : (addKey (load b) (keyQuad a.encKs 0)).s1 = (beWords b).getD 1 0#32 ^^^ a.encKs.getD 1 0#32 := rfl
    have k2 : (addKey (load b) (keyQuad a.encKs 0)).s2 = (beWords b).getD 2 0#32 ^^^ a.encKs.getD 2 0#32 := rfl
    have k3 : (addKey (load b) (keyQuad a.encKs 0)).s3 = (beWords b).getD 3 0#32 ^^^ a.encKs.getD 3 0#32 := rfl
    simp only [Fin.val_zero, Fin.val_one, Fin.val_two, show ((3 : Fin 4) : Nat) = 3 from rfl] at b00 b01 b02 b03 b10 b11 b12 b13 b20 b21 b22 b23 b30 b31 b32 b33
    rw [encIdx, k0, k1, k2, k3, b00, b01, b02, b03, b10, b11, b12, b13, b20, b21, b22, b23, b30, b31, b32, b33]
    rfl
  rw [e]
  rfl

end AES

section DES
open Verif.Model.DES

theorem byte_shift (x y : Byte) : x >>> 1 = y >>> 1 ↔ ∀ j < 7, x.getMsbD j = y.getMsbD j := by
  constructor
  · intro h j hj
    have := congrArg (fun z : Byte => z.getLsbD (6 - j)) h
    simp only [BitVec.getLsbD_ushiftRight] at this
    rw [BitVec.getMsbD_eq_getLsbD, BitVec.getMsbD_eq_getLsbD, show 8 - 1 - j = 1 + (6 - j) by omega, this]
  · intro h
    refine BitVec.eq_of_getLsbD_eq fun i hi => ?_
    rw [BitVec.getLsbD_ushiftRight, BitVec.getLsbD_ushiftRight]
    by_cases h7 : i < 7
    · have := h (6 - i) (by omega)
      rw [BitVec.getMsbD_eq_getLsbD, BitVec.getMsbD_eq_getLsbD, show 8 - 1 - (6 - i) = 1 + i by omega] at this
      simpa [show 6 - i < 8 by omega] using this
    · rw [BitVec.getLsbD_of_ge _ _ (by omega), BitVec.getLsbD_of_ge _ _ (by omega)]

theorem parity_bits (key key' : Bytes) : (∀ i < 8, key.getD i 0#8 >>> 1 = key'.getD i 0#8 >>> 1) ↔
    ∀ i : Fin 64, i.val % 8 ≠ 7 → Spec.DES.ofBytes key i = Spec.DES.ofBytes key' i := by
  constructor
  · intro h i hi
    exact (byte_shift _ _).1 (h (i.val / 8) (by omega)) _ (by omega)
  · intro h i hi
    rw [byte_shift]
    intro j hj
    have := h ⟨8 * i + j, by omega⟩ (by simp only; omega)
    simpa [Spec.DES.ofBytes, -List.getD_eq_getElem?_getD, show (8 * i + j) / 8 = i by omega, show (8 * i + j) % 8 = j by omega] using this

theorem roundKey_congr {x y : Spec.DES.Bits 64} (h : ∀ i : Fin 64, i.val % 8 ≠ 7 → x i = y i) : Spec.DES.roundKey x = Spec.DES.roundKey y := by
  have hs : Spec.DES.select 56 Spec.DES.PC1 x = Spec.DES.select 56 Spec.DES.PC1 y := by
    funext i
    have : ∀ i : Fin 56, (Fin.ofNat 64 (Spec.DES.PC1.getD i.val 0 - 1)).val % 8 ≠ 7 := by decide
    exact h _ (this i)
  have hc : ∀ n, Spec.DES.cd x n = Spec.DES.cd y n := by
    intro n
    induction n with
    | zero => simp only [Spec.DES.cd, hs]
    | succ n ih => simp only [Spec.DES.cd, ih]
  funext n
  simp only [Spec.DES.roundKey, hc]

theorem des_reads (key key' b : Bytes) (enc : Bool) : (cryptDES (DES.new key) b enc).evs = (cryptDES (DES.new key') b enc).evs ↔
    ∀ i < 8, key.getD i 0#8 >>> 1 = key'.getD i 0#8 >>> 1 := by
  rw [parity_bits, cryptDES, cryptDES, evs_bind, evs_bind, evs_pure, evs_pure, List.append_nil, List.append_nil, desRoundsL_iff]
  have e : (∀ j, 0 ≤ j → j < 0 + 16 → bits 48 ((DES.new key).ks.getD (if enc then j else 15 - j) 0#64) = bits 48 ((DES.new key').ks.getD (if enc then j else 15 - j) 0#64)) ↔
      ∀ j < 16, Spec.DES.roundKey (Spec.DES.ofBytes key) (j + 1) = Spec.DES.roundKey (Spec.DES.ofBytes key') (j + 1) := by
    cases enc
    · constructor
      · intro h j hj
        have := h (15 - j) (by omega) (by omega)
        simp only [Bool.false_eq_true, if_false, show 15 - (15 - j) = j by omega] at this
        rw [bits_ks key j hj, bits_ks key' j hj] at this
        exact this
      · intro h j _ hj
        simp only [Bool.false_eq_true, if_false]
        rw [bits_ks key _ (by omega), bits_ks key' _ (by omega), h _ (by omega)]
    · constructor
      · intro h j hj
        have := h j (by omega) (by omega)
        simp only [if_true] at this
        rw [bits_ks key j hj, bits_ks key' j hj] at this
        exact this
      · intro h j _ hj
        simp only [if_true]
        rw [bits_ks key _ (by omega), bits_ks key' _ (by omega), h _ (by omega)]
  refine e.trans ⟨roundKey_bits, fun h j _ => by rw [roundKey_congr h]⟩

end DES
end Verif.Model.Reads
