import Verif.Proof.FlakyOnce
import Verif.Proof.CMAC

/-! Helper lemmas: CMAC over a cipher that may fail -/

namespace Verif.Model.FlakyOnce
open Verif.Model.Flaky (Sched)
open Verif.Model.Flaky
open Verif.Spec.Flaky (first)
open Verif.Spec.FlakyOnce (MacSt chained)
open Verif.Model.CMAC (Mid Inv xorInto_eq xorBytes_length chain_length chain_append mid_bounds mid_nil)
open Verif.Spec.CMAC

variable {c : BlockCipher} {E D : Bytes → Bytes} {fail : Sched}

theorem blocks_chained (n : Nat) (hn : 0 < n) (m : Bytes) : blocks n m - 1 = chained n m.length := by
  unfold blocks chained
  split
  · rename_i h; subst h; simp
  · rename_i h
    have := List.length_pos_iff.2 h
    rw [show m.length + n - 1 = (m.length - 1) + n by omega, Nat.add_div_right _ hn, Nat.add_sub_cancel]

theorem chained_of {n k l : Nat} (h1 : k * n < l) (h2 : l ≤ k * n + n) : chained n l = k := by
  unfold chained
  apply Nat.div_eq_of_lt_le
  · omega
  · rw [Nat.succ_mul]; omega

theorem macCall_none {t : Nat} {nonce cur : Bytes} (h : Lawful c E D) (hl : cur.length = c.bs) (hf : fail t = none) :
    macCall c fail t nonce cur = (E cur, .ok ()) := by
  simp [macCall, hf, h.enc cur hl]

theorem macCall_some {t : Nat} {nonce cur : Bytes} {g : Bytes → Bytes} (hf : fail t = some g) :
    macCall c fail t nonce cur = (g nonce, .error .panic) := by
  simp [macCall, hf]

theorem macLoop_eq (h : Lawful c E D) (m : Bytes) (fuel j t : Nat) (cur : Bytes) (hc : cur.length = c.bs)
    (hj : j * c.bs < m.length) (hf : m.length - j * c.bs < fuel) :
    j ≤ chained c.bs m.length ∧
    match first (bad fail) t (chained c.bs m.length - j) with
    | none => ∃ cur', macLoop c fail c.bs fuel t cur (chain E c.bs m j) (m.drop (j * c.bs)) =
        (t + (chained c.bs m.length - j), cur', chain E c.bs m (chained c.bs m.length), m.drop (chained c.bs m.length * c.bs), .ok ())
    | some k => ∃ cur' nonce rest, macLoop c fail c.bs fuel t cur (chain E c.bs m j) (m.drop (j * c.bs)) = (t + k + 1, cur', nonce, rest, .error .panic) := by
  induction fuel generalizing j cur t with
  | zero => omega
  | succ fuel ih =>
    rw [macLoop]
    have hp := h.pos
    by_cases hl : (m.drop (j * c.bs)).length > c.bs
    · rw [if_pos hl]
      rw [List.length_drop] at hl
      have hcl := chain_length h m j (by omega)
      have hx : (xorBytes (chain E c.bs m j) ((m.drop (j * c.bs)).take c.bs)).length = c.bs := by
        rw [xorBytes_length, hcl, List.length_take, List.length_drop]; omega
      simp only [hx, List.drop_of_length_le (Nat.le_of_eq hc), List.append_nil, List.drop_drop]
      rw [show j * c.bs + c.bs = (j + 1) * c.bs by rw [Nat.succ_mul]]
      obtain ⟨i1, i2⟩ := ih (j + 1) (t + 1) _ hx (by rw [Nat.succ_mul]; omega) (by rw [Nat.succ_mul]; omega)
      refine ⟨by omega, ?_⟩
      obtain ⟨w, hw⟩ : ∃ w, chained c.bs m.length - j = w + 1 := ⟨chained c.bs m.length - (j + 1), by omega⟩
      rw [show chained c.bs m.length - (j + 1) = w by omega] at i2
      rw [hw, first]
      cases hfl : fail t with
      | some g =>
        rw [macCall_some hfl]
        rw [if_pos (by simp [bad, hfl])]
        simp only [Nat.add_zero]
        exact ⟨_, _, _, rfl⟩
      | none =>
        rw [macCall_none h hx hfl]
        rw [if_neg (by simp [bad, hfl])]
        simp only
        have hE : E (xorBytes (chain E c.bs m j) ((m.drop (j * c.bs)).take c.bs)) = chain E c.bs m (j + 1) := rfl
        rw [hE]
        cases hF : first (bad fail) (t + 1) w with
        | none =>
          rw [hF] at i2
          obtain ⟨cur', e⟩ := i2
          exact ⟨cur', by rw [e, Nat.add_assoc, Nat.add_comm 1]⟩
        | some k =>
          rw [hF] at i2
          obtain ⟨cur', nonce, rest, e⟩ := i2
          exact ⟨cur', nonce, rest, by rw [e, Nat.add_right_comm t 1, Nat.add_assoc t k]⟩
    · rw [if_neg hl]
      rw [List.length_drop] at hl
      rw [chained_of hj (by omega)]
      refine ⟨Nat.le_refl _, ?_⟩
      simp [first]

theorem macWrite_mid (h : Lawful c E D) (hcb : c.blockSize = some c.bs) (s : CMAC.State) (hsc : s.cipher = c) (t : Nat)
    (m x : Bytes) (hm : Mid E c.bs s.data s.nonce m) (hck : s.isCheck = false) :
    match first (bad fail) t (chained c.bs (m ++ x).length - chained c.bs m.length) with
    | none => ∃ data nonce, macWrite fail ⟨s, t⟩ x = (.ok (), ⟨{ s with data := data, nonce := nonce },
        t + (chained c.bs (m ++ x).length - chained c.bs m.length)⟩) ∧ Mid E c.bs data nonce (m ++ x)
    | some k => ∃ data nonce, macWrite fail ⟨s, t⟩ x = (.error .panic, ⟨{ s with data := data, nonce := nonce }, t + k + 1⟩) := by
  obtain ⟨k, hk, hd, hn⟩ := hm
  have hp := h.pos
  have hb := mid_bounds c.bs hp m
  rw [← hk] at hb
  have hkc : k = chained c.bs m.length := by rw [hk, blocks_chained _ hp]
  have hkm : k * c.bs ≤ m.length ∧ m.length ≤ k * c.bs + c.bs := by
    rcases hb with hb | ⟨h1, h2⟩
    · omega
    · rw [hk, h1, h2]; simp
  have hdl : s.data.length = m.length - k * c.bs := by rw [hd, List.length_drop]
  have hbs : CMAC.blockSize s = .ok c.bs := by rw [CMAC.blockSize, hsc, hcb]
  have hdrop : (m ++ x).drop (k * c.bs) = s.data ++ x := by rw [List.drop_append_of_le_length hkm.1, hd]
  have hchain : chain E c.bs (m ++ x) k = s.nonce := by rw [chain_append _ _ _ _ hkm.1, hn]
  have hsame : s.data.length + x.length ≤ c.bs → chained c.bs (m ++ x).length = k ∧ Mid E c.bs (s.data ++ x) s.nonce (m ++ x) := by
    intro hle
    have hq : chained c.bs (m ++ x).length = k := by
      rcases hb with hb | ⟨h1, h2⟩
      · exact chained_of (by rw [List.length_append]; omega) (by rw [List.length_append]; omega)
      · have hk0 : k = 0 := by omega
        rw [hk0] at hdl
        rw [hk0, chained, List.length_append]
        exact Nat.div_eq_of_lt (by omega)
    exact ⟨hq, k, by rw [blocks_chained _ hp, hq], hdrop.symm, hchain.symm⟩
  unfold macWrite
  rw [← hkc]
  simp only [hbs, hck, Bool.false_eq_true, if_false]
  by_cases h1 : x.length + s.data.length < c.bs
  · obtain ⟨q1, q2⟩ := hsame (by omega)
    rw [q1, Nat.sub_self, first, CMAC.take, if_pos h1]
    refine ⟨s.data ++ x, s.nonce, ?_, q2⟩
    simp only
    rw [if_neg (by rw [List.length_append]; simp; omega)]
    simp
  · rw [CMAC.take, if_neg h1, if_neg (by omega)]
    simp only
    have hcl : (s.data ++ x.take (c.bs - s.data.length)).length = c.bs := by
      rw [List.length_append, List.length_take]; omega
    by_cases h2 : x.length = c.bs - s.data.length
    · obtain ⟨q1, q2⟩ := hsame (by omega)
      rw [q1, Nat.sub_self, first]
      refine ⟨s.data ++ x, s.nonce, ?_, q2⟩
      rw [if_neg (by rw [hcl, List.length_drop]; omega)]
      rw [List.drop_of_length_le (by omega), List.take_of_length_le (by omega)]
      simp
    · rw [if_pos (by rw [hcl, List.length_drop]; omega)]
      have hnl : s.nonce.length = c.bs := by rw [hn]; exact chain_length h m k hkm.1
      have hblock : block c.bs (m ++ x) k = s.data ++ x.take (c.bs - s.data.length) := by
        rw [block, hdrop, List.take_append, List.take_of_length_le (by omega)]
      have hxl : (CMAC.xorInto (s.data ++ x.take (c.bs - s.data.length)) s.nonce).length = c.bs := by
        rw [xorInto_eq _ _ (by omega), xorBytes_length, hcl, hnl]; omega
      have hE : E (CMAC.xorInto (s.data ++ x.take (c.bs - s.data.length)) s.nonce) = chain E c.bs (m ++ x) (k + 1) := by
        rw [chain, hchain, hblock, xorInto_eq _ _ (by omega), CMAC.xorBytes_comm]
      have hrest : x.drop (c.bs - s.data.length) = (m ++ x).drop ((k + 1) * c.bs) := by
        rw [Nat.succ_mul, ← List.drop_drop, hdrop, List.drop_append, List.drop_of_length_le (show s.data.length ≤ c.bs by omega), List.nil_append]
      have hlen : (k + 1) * c.bs < (m ++ x).length := by rw [Nat.succ_mul, List.length_append]; omega
      obtain ⟨i1, i2⟩ := macLoop_eq (fail := fail) h (m ++ x) ((x.drop (c.bs - s.data.length)).length + 1) (k + 1) (t + 1) _ hxl hlen
        (by rw [hrest, List.length_drop]; omega)
      obtain ⟨w, hw⟩ : ∃ w, chained c.bs (m ++ x).length - k = w + 1 := ⟨chained c.bs (m ++ x).length - (k + 1), by omega⟩
      rw [show chained c.bs (m ++ x).length - (k + 1) = w by omega] at i2
      rw [hw, first]
      rw [hrest] at i2 ⊢
      simp only [hsc]
      cases hfl : fail t with
      | some g =>
        rw [macCall_some hfl]
        rw [if_pos (by simp [bad, hfl])]
        simp only [Nat.add_zero]
        exact ⟨_, _, rfl⟩
      | none =>
        rw [macCall_none h hxl hfl, hE]
        rw [if_neg (by simp [bad, hfl])]
        simp only
        cases hF : first (bad fail) (t + 1) w with
        | some j =>
          rw [hF] at i2
          obtain ⟨cur', nonce, rest, e⟩ := i2
          rw [e]
          refine ⟨cur', nonce, ?_⟩
          rw [Nat.add_right_comm t 1, Nat.add_assoc t j]
        | none =>
          rw [hF] at i2
          obtain ⟨cur', e⟩ := i2
          rw [e]
          have hpos : chained c.bs (m ++ x).length * c.bs < (m ++ x).length := by
            have := Nat.div_mul_le_self ((m ++ x).length - 1) c.bs
            have : 0 < (m ++ x).length := by omega
            unfold chained
            omega
          refine ⟨(m ++ x).drop (chained c.bs (m ++ x).length * c.bs), chain E c.bs (m ++ x) (chained c.bs (m ++ x).length), ?_, chained c.bs (m ++ x).length, ?_, rfl, rfl⟩
          · simp only
            rw [if_neg]
            · rw [Nat.add_assoc, Nat.add_comm 1]
            · rw [List.isEmpty_iff]
              intro hh
              have := congrArg List.length hh
              rw [List.length_drop, List.length_nil] at this
              omega
          · rw [blocks_chained _ hp]

/-- What the calls of the cipher cannot change. -/
def Keeps (c : BlockCipher) (E : Bytes → Bytes) (rb : Nat) (s : CMAC.State) : Prop := s.cipher = c ∧ s.k1 = k1 E c.bs rb ∧ s.k2 = k2 E c.bs rb

theorem macReset_keeps {rb : Nat} (hcb : c.blockSize = some c.bs) (s : CMAC.State) (hs : Keeps c E rb s) (t : Nat) :
    ∃ s', macReset ⟨s, t⟩ = (.ok (), ⟨s', t⟩) ∧ Inv c E rb s' [] false := by
  obtain ⟨h1, h2, h3⟩ := hs
  have hbs : CMAC.blockSize s = .ok c.bs := by rw [CMAC.blockSize, h1, hcb]
  exact ⟨{ s with nonce := List.replicate c.bs 0#8, data := [], isCheck := false }, by simp [macReset, CMAC.reset, hbs, bind, Except.bind],
    h1, h2, h3, rfl, mid_nil _⟩

theorem macWrite_inv (h : Lawful c E D) (hcb : c.blockSize = some c.bs) (rb : Nat) (s : CMAC.State) (t : Nat) (m x : Bytes) (done : Bool)
    (hi : Inv c E rb s m done) :
    let m := if done then [] else m
    match first (bad fail) t (chained c.bs (m ++ x).length - chained c.bs m.length) with
    | none => ∃ s', macWrite fail ⟨s, t⟩ x = (.ok (), ⟨s', t + (chained c.bs (m ++ x).length - chained c.bs m.length)⟩) ∧ Inv c E rb s' (m ++ x) false
    | some k => ∃ s', macWrite fail ⟨s, t⟩ x = (.error .panic, ⟨s', t + k + 1⟩) ∧ Keeps c E rb s' := by
  obtain ⟨h1, h2, h3, h4, h5⟩ := hi
  have hbs : CMAC.blockSize s = .ok c.bs := by rw [CMAC.blockSize, h1, hcb]
  cases done with
  | false =>
    have := macWrite_mid (fail := fail) h hcb s h1 t m x h5 h4
    dsimp only
    rw [if_neg (by decide)]
    generalize first (bad fail) t (chained c.bs (m ++ x).length - chained c.bs m.length) = F at this
    cases F with
    | none => obtain ⟨d, n, e, hm⟩ := this; exact ⟨_, e, h1, h2, h3, h4, hm⟩
    | some k => obtain ⟨d, n, e⟩ := this; exact ⟨_, e, h1, h2, h3⟩
  | true =>
    have := macWrite_mid (fail := fail) h hcb { s with nonce := List.replicate c.bs 0#8, isCheck := false } h1 t [] x
        (by show Mid _ _ s.data _ _; rw [h5.1]; exact mid_nil _) rfl
    have hbs' : CMAC.blockSize { s with nonce := List.replicate c.bs 0#8, isCheck := false } = .ok c.bs := hbs
    have hw : macWrite fail ⟨s, t⟩ x = macWrite fail ⟨{ s with nonce := List.replicate c.bs 0#8, isCheck := false }, t⟩ x := by
      simp only [macWrite, hbs, hbs', h4, if_true, Bool.false_eq_true, if_false]
    dsimp only
    rw [if_pos rfl, hw]
    generalize first (bad fail) t (chained c.bs ([] ++ x).length - chained c.bs ([] : Bytes).length) = F at this
    cases F with
    | none => obtain ⟨d, n, e, hm⟩ := this; exact ⟨_, e, h1, h2, h3, rfl, hm⟩
    | some k => obtain ⟨d, n, e⟩ := this; exact ⟨_, e, h1, h2, h3⟩

theorem macChecksum_inv (h : Lawful c E D) (hcb : c.blockSize = some c.bs) (rb : Nat) (s : CMAC.State) (t : Nat) (m : Bytes) (done : Bool)
    (hi : Inv c E rb s m done) :
    if done then macChecksum fail ⟨s, t⟩ = (.ok (mac E c.bs rb m), ⟨s, t⟩)
    else if bad fail t then ∃ s', macChecksum fail ⟨s, t⟩ = (.error .panic, ⟨s', t + 1⟩) ∧ Keeps c E rb s'
    else ∃ s', macChecksum fail ⟨s, t⟩ = (.ok (mac E c.bs rb m), ⟨s', t + 1⟩) ∧ Inv c E rb s' m true := by
  have hL := (CMAC.lawful h hcb rb (8 * m.length + 1)).checksum s m done hi
  obtain ⟨h1, h2, h3, h4, h5⟩ := hi
  have hbs : CMAC.blockSize s = .ok c.bs := by rw [CMAC.blockSize, h1, hcb]
  cases done with
  | true =>
    rw [if_pos rfl]
    simp [macChecksum, h4, h5.2]
  | false =>
    rw [if_neg (by decide)]
    obtain ⟨s', e, hI⟩ := hL (by omega)
    simp only [CMAC.digest, CMAC.checksum, h4, Bool.not_false, if_true, bind, Except.bind, hbs] at e
    simp only [macChecksum, h4, Bool.not_false, if_true, hbs]
    cases hfl : fail t with
    | some g =>
      rw [if_pos (by simp [bad, hfl]), macCall_some hfl]
      exact ⟨_, rfl, h1, h2, h3⟩
    | none =>
      rw [if_neg (by simp [bad, hfl])]
      simp only [macCall, hfl]
      revert e
      simp only [CMAC.encryptUnwrap]
      generalize s.cipher.encrypt _ = r
      cases r with
      | error e => intro e; cases e
      | ok y =>
        intro e
        simp only [Except.ok.injEq, Prod.mk.injEq] at e
        obtain ⟨e1, rfl⟩ := e
        exact ⟨s', by rw [← e1], hI⟩

theorem macRun_eq (h : Lawful c E D) (hcb : c.blockSize = some c.bs) (rb : Nat) (ops : List DOp) (s : CMAC.State) (t : Nat) (m : Bytes) (done : Bool)
    (hi : Inv c E rb s m done) :
    macRun fail ⟨s, t⟩ ops = Spec.FlakyOnce.macRun (bad fail) (mac E c.bs rb) c.bs ⟨m, done, t⟩ ops := by
  have hrec : ∀ {α : Type} (e : Fault) (s' : CMAC.State) (t' : Nat), Keeps c E rb s' →
      ∃ s'', recover ((.error e, ⟨s', t'⟩) : Res α × Mac) = ⟨s'', t'⟩ ∧ Inv c E rb s'' [] false := by
    intro α e s' t' hk
    obtain ⟨s'', e1, e2⟩ := macReset_keeps hcb s' hk t'
    exact ⟨s'', by simp [recover, e1], e2⟩
  induction ops generalizing s t m done with
  | nil => rfl
  | cons op ops ih =>
    cases op with
    | write d =>
      have hw := macWrite_inv (fail := fail) h hcb rb s t m d done hi
      rw [macRun, Spec.FlakyOnce.macRun]
      dsimp only at hw ⊢
      cases hF : first (bad fail) t (chained c.bs ((if done = true then [] else m) ++ d).length - chained c.bs (if done = true then [] else m).length) with
      | none =>
        rw [hF] at hw
        obtain ⟨s', e, hI⟩ := hw
        rw [e]
        simp only [recover, Except.map]
        rw [ih s' _ _ false hI]
      | some k =>
        rw [hF] at hw
        obtain ⟨s', e, hk⟩ := hw
        obtain ⟨s'', e2, hI⟩ := hrec (α := Unit) .panic s' (t + k + 1) hk
        rw [e, e2]
        simp only [Except.map]
        rw [ih s'' _ _ false hI]
    | checksum =>
      have hc := macChecksum_inv (fail := fail) h hcb rb s t m done hi
      rw [macRun, Spec.FlakyOnce.macRun]
      cases done with
      | true =>
        rw [if_pos rfl] at hc ⊢
        rw [hc]
        simp only [recover]
        rw [ih s t m true hi]
      | false =>
        rw [if_neg Bool.false_ne_true] at hc ⊢
        dsimp only at hc ⊢
        by_cases hb : bad fail t = true
        · rw [if_pos hb] at hc ⊢
          obtain ⟨s', e, hk⟩ := hc
          obtain ⟨s'', e2, hI⟩ := hrec (α := Bytes) .panic s' (t + 1) hk
          rw [e, e2]
          dsimp only
          rw [ih s'' _ _ false hI]
        · rw [if_neg hb] at hc ⊢
          obtain ⟨s', e, hI⟩ := hc
          rw [e]
          simp only [recover]
          rw [ih s' _ _ true hI]
    | reset =>
      obtain ⟨s', e, hI⟩ := macReset_keeps (rb := rb) hcb s ⟨hi.1, hi.2.1, hi.2.2.1⟩ t
      rw [macRun, Spec.FlakyOnce.macRun, e]
      simp only [recover, Except.map]
      rw [ih s' _ _ false hI]

theorem macNew_eq (h : Lawful c E D) (hcb : c.blockSize = some c.bs) (rb : BitVec 32) (hr : CMAC.blockSizeToRb c.bs = some rb) (t : Nat) :
    if bad fail t then macNew c fail t = .error (.err .innerErr)
    else ∃ s, macNew c fail t = .ok ⟨s, t + 1⟩ ∧ Inv c E rb.toNat s [] false := by
  obtain ⟨s, e, hI⟩ := CMAC.new_ok h hcb rb hr
  simp only [macNew, hcb, hr, e]
  by_cases hb : bad fail t = true
  · rw [if_pos hb, if_pos (show (fail t).isSome = true from hb)]
  · rw [if_neg hb, if_neg (show ¬ (fail t).isSome = true from hb)]
    exact ⟨s, rfl, hI⟩

theorem xorBytes_twice (x y : Bytes) (h : x.length = y.length) : xorBytes y (xorBytes y x) = x := by
  unfold xorBytes
  apply List.ext_getElem
  · simp; omega
  · intro i h1 h2
    simp only [List.getElem_zipWith]
    rw [← BitVec.xor_assoc, BitVec.xor_self, BitVec.zero_xor]

/-- `checksum` again after one that panicked: the mask is applied twice. -/
theorem macChecksum_again (h : Lawful c E D) (hcb : c.blockSize = some c.bs) (rb : Nat) (s : CMAC.State) (t : Nat) (m : Bytes) (hm0 : m ≠ []) (hm : m.length % c.bs = 0)
    (hi : Inv c E rb s m false) (h0 : fail t = some id) (h1 : fail (t + 1) = none) :
    ∃ o', macChecksum fail ⟨s, t⟩ = (.error .panic, o') ∧ (macChecksum fail o').1 = .ok (E (m.drop (m.length - c.bs))) := by
  obtain ⟨i1, i2, i3, i4, k, hk, hd, hn⟩ := hi
  have hp := h.pos
  have hb := mid_bounds c.bs hp m
  rw [← hk] at hb
  rcases hb with hb | ⟨_, h2⟩
  swap
  · exact absurd h2 hm0
  have hlen : m.length = k * c.bs + c.bs := by
    obtain ⟨q, hq⟩ := Nat.dvd_of_mod_eq_zero hm
    rw [Nat.mul_comm] at hq
    have a1 : k < q := by
      rw [hq] at hb
      exact Nat.lt_of_mul_lt_mul_right hb.1
    have a2 : q ≤ k + 1 := by
      rw [hq, ← Nat.succ_mul] at hb
      exact Nat.le_of_mul_le_mul_right hb.2 hp
    have : q = k + 1 := by omega
    rw [hq, this, Nat.succ_mul]
  have hdl : s.data.length = c.bs := by rw [hd, List.length_drop]; omega
  have hnl : s.nonce.length = c.bs := by rw [hn]; exact chain_length h m k (by omega)
  have hk1 : s.k1.length = c.bs := by rw [i2]; exact CMAC.double_length _ _ _
  have hbs : CMAC.blockSize s = .ok c.bs := by rw [CMAC.blockSize, i1, hcb]
  have hM : (CMAC.mask s.data s.nonce s.k1).length = c.bs := by
    rw [CMAC.mask_eq _ _ _ (by omega) (by omega), xorBytes_length, xorBytes_length]; omega
  have hMM : CMAC.mask (CMAC.mask s.data s.nonce s.k1) s.nonce s.k1 = s.data := by
    rw [CMAC.mask_eq (CMAC.mask s.data s.nonce s.k1) _ _ (by omega) (by omega), CMAC.mask_eq _ _ _ (by omega) (by omega)]
    have hx : xorBytes s.k1 (xorBytes s.nonce (xorBytes s.k1 s.data)) = xorBytes s.nonce s.data := by
      unfold xorBytes
      apply List.ext_getElem
      · simp; omega
      · intro i _ _
        simp only [List.getElem_zipWith]
        have : ∀ a b d : Byte, a ^^^ (b ^^^ (a ^^^ d)) = b ^^^ d := by
          intro a b d
          rw [BitVec.xor_comm b, BitVec.xor_assoc a d b, ← BitVec.xor_assoc, BitVec.xor_self, BitVec.zero_xor, BitVec.xor_comm]
        exact this _ _ _
    rw [hx, xorBytes_twice _ _ (by omega)]
  refine ⟨⟨{ s with data := CMAC.mask s.data s.nonce s.k1 }, t + 1⟩, ?_, ?_⟩
  · simp only [macChecksum, i4, Bool.not_false, if_true, hbs, hdl]
    rw [macCall_some h0]
    simp
  · simp only [macChecksum, i4, Bool.not_false, if_true, CMAC.blockSize, i1, hcb, hM, hMM]
    rw [macCall_none h hdl h1]
    simp only
    rw [hd, hlen, Nat.add_sub_cancel]

/-- A call of a mode that keeps nothing in the object, made again until it succeeds. -/
theorem attempts_eq {f : Nat × Bytes → Bytes → (Nat × Bytes) × Bytes × Res Nat} {n w : Nat} {whole raw : Bytes}
    (hf : ∀ t buf dst, seen (f (t, buf) dst) = Spec.FlakyOnce.once (bad fail) n t w (whole, .ok whole.length) raw) (r t : Nat) (buf dst : Bytes) :
    ((∀ l, (attempts f r (t, buf) dst).2.2 = .ok l → (attempts f r (t, buf) dst).2 = (whole, .ok whole.length)) ∧
      ∀ T, (∀ i, T ≤ i → bad fail i = false) → 0 < r → T < t + r → (attempts f r (t, buf) dst).2 = (whole, .ok whole.length)) := by
  induction r generalizing t buf dst with
  | zero => exact ⟨fun l hl => by simp [attempts] at hl, fun T hT h0 => absurd h0 (by omega)⟩
  | succ r ih =>
    have h1 := hf t buf dst
    rw [Spec.FlakyOnce.once] at h1
    rw [attempts]
    generalize f (t, buf) dst = q at h1
    obtain ⟨⟨t', buf'⟩, dst', res⟩ := q
    simp only [seen] at h1
    cases hF : first (bad fail) t w with
    | none =>
      rw [hF] at h1
      simp only [Prod.mk.injEq] at h1
      obtain ⟨rfl, rfl, rfl⟩ := h1
      exact ⟨fun _ _ => rfl, fun _ _ _ _ => rfl⟩
    | some k =>
      rw [hF] at h1
      simp only [Prod.mk.injEq] at h1
      obtain ⟨rfl, rfl, rfl⟩ := h1
      obtain ⟨_, hk, _⟩ := first_some.1 hF
      refine ⟨(ih _ _ _).1, fun T hT h0 hr => ?_⟩
      have hkT : t + k < T := by
        by_contra hc
        rw [hT _ (by omega)] at hk
        exact absurd hk (by decide)
      exact (ih _ _ _).2 T hT (by omega) (by omega)

end Verif.Model.FlakyOnce
