import Verif.Model.CBC
import Verif.Model.OFB
import Verif.Model.InitialVec
import Verif.Proof.CFB
import Verif.Proof.CTR
import Verif.Proof.Toy

/-! Properties C59, C60 -/

namespace Verif.Props
open Verif.Model Verif.Spec

variable {c : BlockCipher}

/-- C59: CBC accepts exactly IVs of the block length, in `new`/`update_iv` and in `set_iv`. -/
theorem C59_cbc_iv {bs : Nat} (hc : c.blockSize = some bs) (iv : Bytes) :
    CBC.checkIv c (.ok iv) = (if iv.length = bs then .ok iv else .error (.err .innerErr)) ∧
    CBC.setIv c iv = (if iv.length = bs then .ok iv else .error (.err .invalidParameter)) := by
  simp only [CBC.checkIv, CBC.setIv, BlockCipher.bs, hc, Option.getD, Option.isSome, true_and, bind, Except.bind]
  by_cases h : iv.length = bs <;> simp [h]

/-- C59: OFB accepts exactly IVs of the block length, in `new`, `update_iv` and `set_iv`. -/
theorem C59_ofb_iv {bs : Nat} (hc : c.blockSize = some bs) (iv : Bytes) :
    OFB.new c (.ok iv) = (if iv.length = bs then .ok iv else .error (.err .innerErr)) ∧
    OFB.updateIv c (.ok iv) = (if iv.length = bs then .ok iv else .error (.err .innerErr)) ∧
    OFB.setIv c iv = (if iv.length = bs then .ok iv else .error (.err .innerErr)) := by
  simp only [OFB.new, OFB.updateIv, OFB.setIv, BlockCipher.bs, hc, Option.getD, Option.isSome, true_and, bind, Except.bind]
  by_cases h : iv.length = bs <;> simp [h]

/-- C59: CFB `update_iv` and `set_iv` accept exactly IVs of the block length. -/
theorem C59_cfb_iv {bs : Nat} (hc : c.blockSize = some bs) (iv : Bytes) :
    CFB.updateIv c (.ok iv) = (if iv.length = bs then .ok iv else .error (.err .innerErr)) ∧
    CFB.setIv c iv = (if iv.length = bs then .ok iv else .error (.err .invalidParameter)) := by
  simp only [CFB.updateIv, CFB.setIv, BlockCipher.bs, hc, Option.getD, Option.isSome, true_and, bind, Except.bind]
  by_cases h : iv.length = bs
  · simp [h]
  · simp [h, Ne.symm h]

/-- C59: when the random source fails, every constructor reports that error. -/
theorem C59_iv_error (c : BlockCipher) (e : Fault) :
    CBC.checkIv c (.error e) = .error e ∧ OFB.new c (.error e) = .error e ∧ OFB.updateIv c (.error e) = .error e ∧
    CFB.updateIv c (.error e) = .error e := ⟨rfl, rfl, rfl, rfl⟩

/-- C59: CFB without padding accepts exactly the segment sizes of 1 byte up to a block and IVs of block length. -/
theorem C59_cfb_new_empty {bs : Nat} (hc : c.blockSize = some bs) (iv : Bytes) (bits : Nat) :
    (∃ r, CFB.new c .empty (.ok iv) bits = .ok r) ↔ (∃ s, bits = 8 * s ∧ 1 ≤ s ∧ s ≤ bs) ∧ iv.length = bs := by
  unfold CFB.new
  simp only [BlockCipher.bs, hc, Option.getD, Option.isSome, true_and, bind, Except.bind, Padding.padding]
  constructor
  · rintro ⟨r, h⟩
    split at h
    · cases h
    · split at h
      · cases h
      · split at h
        · cases h
        · split at h
          · cases h
          · rename_i h1 h2 h3 h4
            exact ⟨⟨bits / 8, by omega, by omega, by omega⟩, by simpa using h4⟩
  · rintro ⟨⟨s, rfl, h1, h2⟩, h3⟩
    refine ⟨(s, iv), ?_⟩
    have e : 8 * s / 8 = s := by omega
    rw [if_neg (by omega), e, if_neg (by omega), if_neg (by simp), if_neg (by simp [h3])]

/-- C59: CFB with default padding accepts exactly the segment sizes that divide the block size (and, for three byte blocks only, two byte segments). -/
theorem C59_cfb_new_default {bs : Nat} (hc : c.blockSize = some bs) (iv : Bytes) (bits : Nat) :
    (∃ r, CFB.new c (.defaultOf c) (.ok iv) bits = .ok r) ↔
      (∃ s, bits = 8 * s ∧ 1 ≤ s ∧ s ≤ bs ∧ (s ∣ bs ∨ (bs = 3 ∧ s = 2))) ∧ iv.length = bs := by
  have key : ∀ s, 1 ≤ s → s ≤ bs → (((Padding.default bs).padding (List.replicate s 0#8)).length % s = 0 ↔ (s ∣ bs ∨ (bs = 3 ∧ s = 2))) := by
    intro s h1 h2
    rw [← Nat.dvd_iff_mod_eq_zero]
    rcases Nat.lt_or_eq_of_le h2 with hlt | heq
    · rw [padded_tail_length (by simpa using hlt), List.length_replicate]
      split
      · rename_i he
        subst he
        constructor
        · intro hd
          have : s ∣ 2 := by
            have h3 : s ∣ (s + 1) * 2 := hd
            rw [Nat.add_mul, Nat.one_mul] at h3
            exact (Nat.dvd_add_right (Nat.dvd_mul_right s 2)).1 h3
          have hs2 := Nat.le_of_dvd (by decide) this
          rcases Nat.lt_or_eq_of_le hs2 with h | h
          · left; rw [show s = 1 by omega]; exact Nat.one_dvd _
          · right; omega
        · rintro (hd | ⟨h3, rfl⟩)
          · exact Nat.dvd_trans hd (Nat.dvd_mul_right _ _)
          · decide
      · constructor
        · exact Or.inl
        · rintro (hd | ⟨h3, rfl⟩)
          · exact hd
          · omega
    · subst heq
      constructor
      · intro _; left; exact Nat.dvd_refl _
      · intro _
        rw [Nat.dvd_iff_mod_eq_zero, length_padding_default]
        exact padZeros_mod _ (by omega) _
  unfold CFB.new
  simp only [Padding.defaultOf, BlockCipher.bs, hc, Option.getD, Option.isSome, true_and, bind, Except.bind]
  constructor
  · rintro ⟨r, h⟩
    split at h
    · cases h
    · split at h
      · cases h
      · split at h
        · cases h
        · split at h
          · cases h
          · rename_i h1 h2 h3 h4
            exact ⟨⟨bits / 8, by omega, by omega, by omega, (key _ (by omega) (by omega)).1 (by omega)⟩, by simpa using h4⟩
  · rintro ⟨⟨s, rfl, h1, h2, h5⟩, h3⟩
    refine ⟨(s, iv), ?_⟩
    have e : 8 * s / 8 = s := by omega
    rw [if_neg (by omega), e, if_neg (by omega), if_neg (by rw [(key s h1 h2).2 h5]; simp), if_neg (by simp [h3])]

example : (∃ r, CFB.new (Toy.cipher 8) (.defaultOf (Toy.cipher 8)) (.ok [1, 2, 3, 4, 5, 6, 7, 8]) 32 = .ok r) := ⟨_, rfl⟩
example : CFB.new (Toy.cipher 8) (.defaultOf (Toy.cipher 8)) (.ok [1, 2, 3, 4, 5, 6, 7, 8]) 24 = .error (.err .invalidParameter) := by rfl

/-- C59: CTR accepts exactly counters at least one block wide. -/
theorem C59_ctr_new {κ : Type} (ops : CounterOps κ) (k : κ) :
    CTR.new c ops k = if c.bs * 8 ≤ ops.bitsLen k then .ok k else .error (.err .innerErr) := by
  unfold CTR.new
  by_cases h : c.bs * 8 ≤ ops.bitsLen k
  · rw [if_neg (by omega), if_pos h]
  · rw [if_pos (by omega), if_neg h]

/-- C59: the default random IV has exactly the block length, for every random source and state that does not fail. -/
theorem C59_default_iv {ρ : Type} (gen : ρ → Option (BitVec 32 × ρ)) (bs : Nat) (r r' : ρ) (iv : Bytes)
    (h : initialVec gen bs r = .ok (iv, r')) : iv.length = bs := by
  have key : ∀ n (r : ρ) (acc : Bytes) (iv : Bytes) (r' : ρ), ivLoop gen n r acc = .ok (iv, r') → iv.length = acc.length + 4 * n := by
    intro n
    induction n with
    | zero => intro r acc iv r' h; simp [ivLoop] at h; rw [← h.1]; rfl
    | succ n ih =>
      intro r acc iv r' h
      simp only [ivLoop] at h
      split at h
      · have := ih _ _ _ _ h
        rw [this]; simp [be32]; omega
      · cases h
  unfold initialVec at h
  simp only [bind, Except.bind] at h
  split at h
  · cases h
  · rename_i p hp
    obtain ⟨iv', r''⟩ := p
    have := key _ _ _ _ _ hp
    injection h with h
    injection h with h1 h2
    rw [← h1, List.length_take, this]
    simp; omega

example : initialVec (fun n : Nat => some (BitVec.ofNat 32 n, n + 1)) 6 0x01020304 = .ok ([1, 2, 3, 4, 1, 2], 0x01020306) := by decide

/-- C60: after `reset()` at any point every stream is as newly created. -/
theorem C60_reset :
    (∀ s, ECB.reset s = ECB.init) ∧ (∀ iv s, CBC.reset iv s = CBC.init iv) ∧ (∀ iv s, CFB.reset iv s = CFB.init iv) ∧
    (∀ iv s, OFB.reset iv s = OFB.init iv) ∧
    (∀ (κ : Type) (ops : CounterOps κ) s, CTR.reset ops s = CTR.init ops s.st) :=
  ⟨fun _ => rfl, fun _ _ => rfl, fun _ _ => rfl, fun _ _ => rfl, fun _ _ _ => rfl⟩

/-- C60 for CTR with `DefaultCounter`: `reset` after any use of the stream restores the newly created one. -/
theorem C60_ctr_reset (k : DefaultCounter) (wr : List (Bytes × Bool)) (out : Bytes) (s : StreamSt DefaultCounter)
    (h : feed (CTR.stream c DefaultCounter.ops) (CTR.init DefaultCounter.ops k) wr = .ok (out, s)) :
    CTR.reset DefaultCounter.ops s = CTR.init DefaultCounter.ops k := by
  -- width and initial value never change
  have hstep : ∀ fuel (k k' : DefaultCounter) dst data dst' rest, whileLen contNe c.bs (CTR.step c DefaultCounter.ops) fuel k dst data = .ok (k', dst', rest) →
      k'.reset = k.reset := by
    intro fuel
    induction fuel with
    | zero => intro k k' dst data dst' rest h; cases h
    | succ n ih =>
      intro k k' dst data dst' rest h
      rw [whileLen] at h
      split at h
      · split at h
        · rename_i k1 o hs
          have := ih _ _ _ _ _ _ h
          rw [this]
          have hn : DefaultCounter.ops.next k = DefaultCounter.next k := rfl
          simp only [CTR.step, hn] at hs
          have hr : (k.next).2.reset = k.reset := rfl
          split at hs
          · rename_i v k2 hk
            split at hs
            · cases hs
            · simp only [bind, Except.bind] at hs
              split at hs
              · cases hs
              · injection hs with hs; injection hs with h1 _; rw [← h1, ← hr, hk]
          · cases hs
        · cases h
      · injection h with h; injection h with h1 _; rw [h1]
  have hw : ∀ s d s', CTR.write c DefaultCounter.ops s d = .ok s' → s'.st.reset = s.st.reset := by
    intro s d s' h
    unfold CTR.write at h
    split at h
    · injection h with h; rw [h]
    · simp only [CTR.encryptInner, bind, Except.bind] at h
      split at h
      · cases h
      · rename_i p hp
        split at hp
        · cases hp
        · rename_i q hq
          injection h with h
          injection hp with hp
          rw [← h, ← hp]
          exact hstep _ _ _ _ _ _ _ hq
  have hfeed : ∀ (wr : List (Bytes × Bool)) (s s' : StreamSt DefaultCounter) out, feed (CTR.stream c DefaultCounter.ops) s wr = .ok (out, s') →
      s'.st.reset = s.st.reset := by
    intro wr
    induction wr with
    | nil => intro s s' out h; simp [feed] at h; rw [h.2]
    | cons op wr ih =>
      intro s s' out h
      obtain ⟨d, b⟩ := op
      simp only [feed, bind, Except.bind] at h
      split at h
      · cases h
      · rename_i s1 h1
        have e1 := hw _ _ _ h1
        split at h
        · cases h
        · rename_i q h2
          have e2 := ih _ _ _ h2
          injection h with h; injection h with _ h3
          rw [← h3, e2, ← e1]
          cases b <;> rfl
  have := hfeed _ _ _ _ h
  simp only [CTR.reset, CTR.init] at *
  rw [show DefaultCounter.ops.reset s.st = s.st.reset from rfl, this]
  rfl

/-- C60 for `finish`: a successful `finish` leaves ECB, CFB, OFB and CBC-decrypting streams as newly created, from every state. -/
theorem C60_finish_partial (p : Padding) (n : Nat) (iv out : Bytes) :
    (∀ s s', ECB.encFinish c p s = .ok (out, s') → s' = ECB.init) ∧
    (∀ s s', ECB.decFinish c p s = .ok (out, s') → s' = ECB.init) ∧
    (∀ s s', CBC.decFinish c p iv s = .ok (out, s') → s' = CBC.init iv) ∧
    (∀ s s', CFB.encFinish c p n iv s = .ok (out, s') → s' = CFB.init iv) ∧
    (∀ s s', CFB.decFinish c p n iv s = .ok (out, s') → s' = CFB.init iv) ∧
    (∀ s s', OFB.finish c iv s = .ok (out, s') → s' = OFB.init iv) := by
  refine ⟨?_, ?_, ?_, ?_, ?_, ?_⟩ <;> intro s s' h
  · simp only [ECB.encFinish, bind, Except.bind] at h
    split at h
    · cases h
    · injection h with h; injection h with _ h; exact h.symm
  · simp only [ECB.decFinish, bind, Except.bind] at h
    split at h
    · cases h
    · split at h
      · cases h
      · injection h with h; injection h with _ h; exact h.symm
  · simp only [CBC.decFinish, bind, Except.bind] at h
    split at h
    · cases h
    · split at h
      · cases h
      · injection h with h; injection h with _ h; exact h.symm
  · simp only [CFB.encFinish, bind, Except.bind] at h
    split at h
    · cases h
    · injection h with h; injection h with _ h; exact h.symm
  · simp only [CFB.decFinish, bind, Except.bind] at h
    split at h
    · cases h
    · split at h
      · cases h
      · injection h with h; injection h with _ h; exact h.symm
  · unfold OFB.finish at h
    split at h
    · injection h with h; injection h with _ h; exact h.symm
    · simp only [bind, Except.bind] at h
      split at h
      · cases h
      · injection h with h; injection h with _ h; exact h.symm

/-- C60 for CBC encryption with default padding: a successful `finish` leaves the stream as newly created, from every state. -/
theorem C60_cbc_finish_partial (iv out : Bytes) (s s' : StreamSt Bytes)
    (h : CBC.encFinish c (.defaultOf c) iv s = .ok (out, s')) : s' = CBC.init iv := by
  have key : ∀ fuel ij dst data ij' dst' rest, data ≠ [] →
      whileLen contNe c.bs (CBC.finStep c iv) fuel ij dst data = .ok (ij', dst', rest) → ij' = iv := by
    intro fuel
    induction fuel with
    | zero => intro ij dst data ij' dst' rest _ h; cases h
    | succ n ih =>
      intro ij dst data ij' dst' rest hne h
      have h0 : 0 < data.length := List.length_pos_iff.2 hne
      rw [whileLen, if_pos (by simp [contNe, h0])] at h
      split at h
      · rename_i ij1 o hs
        have h1 : ij1 = iv := by
          simp only [CBC.finStep, bind, Except.bind] at hs
          split at hs
          · cases hs
          · injection hs with hs; injection hs with hs _; exact hs.symm
        by_cases hd : data.drop c.bs = []
        · rw [hd] at h
          cases n with
          | zero => cases h
          | succ n =>
            rw [whileLen, if_neg (by simp [contNe])] at h
            injection h with h; injection h with h _; rw [← h, h1]
        · exact ih _ _ _ _ _ _ hd h
      · cases h
  simp only [CBC.encFinish, bind, Except.bind] at h
  split at h
  · cases h
  · rename_i q hq
    injection h with h
    injection h with _ h
    have hne : (Padding.defaultOf c).padding s.data ≠ [] := by
      simp [Padding.defaultOf, padding_default]
    have := key _ _ _ _ _ _ _ hne hq
    rw [← h, this]; rfl

/-- C60 as a statement for CBC encryption: after `finish` the stream behaves like a new one. -/
def CbcFinishFresh (c : BlockCipher) (p : Padding) (iv : Bytes) : Prop :=
  ∀ ops out s', runStream (CBC.encStream c p iv) (CBC.init iv) ops = .ok (out, s') →
    ∀ ops', (runStream (CBC.encStream c p iv) s' ops').map Prod.fst = (runStream (CBC.encStream c p iv) (CBC.init iv) ops').map Prod.fst

/-- C60 is false of the code for CBC encryption without padding: after `finish` the next message is chained to the last block of the previous one
instead of the IV. -/
theorem C60_cbc_empty_fails : ∃ iv, ¬ CbcFinishFresh (Toy.cipher 2) .empty iv := by
  refine ⟨[0, 0], fun h => ?_⟩
  have := h [([1, 2], false)] [3, 2] { data := [], pond := [], st := [3, 2] } (by decide) [([1, 2], false)]
  revert this; decide

/-- C60 as a statement for CTR. -/
def CtrFinishFresh (c : BlockCipher) (k : DefaultCounter) : Prop :=
  ∀ ops out s', runStream (CTR.stream c DefaultCounter.ops) (CTR.init DefaultCounter.ops k) ops = .ok (out, s') →
    ∀ ops', (runStream (CTR.stream c DefaultCounter.ops) s' ops').map Prod.fst =
      (runStream (CTR.stream c DefaultCounter.ops) (CTR.init DefaultCounter.ops k) ops').map Prod.fst

/-- C60 is false of the code for CTR: `finish` does not reset the counter. -/
theorem C60_ctr_fails : ∃ k, ¬ CtrFinishFresh (Toy.cipher 2) k := by
  refine ⟨⟨16, [0, 0], none⟩, fun h => ?_⟩
  have := h [([1, 2], false)] [0, 3] { data := [], pond := [], st := ⟨16, [0, 0], some [0, 0]⟩ } (by decide) [([1, 2], false)]
  revert this; decide

end Verif.Props
