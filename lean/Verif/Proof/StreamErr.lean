import Verif.Model.StreamErr
import Verif.Proof.ECB
import Verif.Proof.CBC
import Verif.Proof.CFB
import Verif.Proof.OFB
import Verif.Proof.CTR

/-! Helper lemmas about histories of stream calls -/

namespace Verif.Model
open Spec

theorem runOps_ideal {σ : Type} {str : Stream σ} {after : StreamSt σ → StreamSt σ} (I : IdealStream Fault)
    (R : Bytes → Bytes → StreamSt σ → Prop)
    (hw : ∀ m o s d, R m o s → ∃ s', str.write s d = .ok s' ∧ R (m ++ d) o s')
    (hd : ∀ m o s, R m o s → R m (o ++ s.pond) { s with pond := [] })
    (hr : ∀ m o s, R m o s → o ++ s.pond = I.ready m)
    (hf : ∀ m o s, R m o s → (∃ e, I.last m o.length = .error e ∧ str.finish s = .error e ∧ after s = s) ∨
      (∃ out o', I.last m o.length = .ok out ∧ str.finish s = .ok (out, after s) ∧ o'.length = (I.next m o.length).2 ∧
        R (I.next m o.length).1 o' (after s)))
    (ops : List SOp) {m o : Bytes} {s : StreamSt σ} (h : R m o s) : runOps str after s ops = I.run m o.length ops := by
  induction ops generalizing m o s with
  | nil => rfl
  | cons op ops ih =>
    cases op with
    | write d =>
      obtain ⟨s', h1, h2⟩ := hw m o s d h
      rw [runOps, h1, IdealStream.run]
      exact congrArg _ (ih h2)
    | draw =>
      obtain ⟨s', h1, h2⟩ := hw m o s [] h
      rw [List.append_nil] at h2
      rw [runOps, h1, IdealStream.run]
      have e := hr _ _ _ h2
      rw [← e, List.drop_left]
      exact congrArg _ (ih (hd _ _ _ h2))
    | finish =>
      rcases hf m o s h with ⟨e, h1, h2, h3⟩ | ⟨out, o', h1, h2, h3, h4⟩
      · rw [runOps, h2, IdealStream.run, h1, h3]
        exact congrArg _ (ih h)
      · rw [runOps, h2, IdealStream.run, h1]
        simp only
        rw [ih h4, h3]

/-- Failed `finish` calls may be left out: the results of the other calls are the same. -/
theorem IdealStream.run_succeeding {ε : Type} (I : IdealStream ε) (ops : List SOp) (m : Bytes) (k : Nat) :
    I.run m k (I.succeeding m k ops) = (I.run m k ops).filter (fun r => r.isOk) := by
  induction ops generalizing m k with
  | nil => rfl
  | cons op ops ih =>
    cases op with
    | write d => simp [IdealStream.run, IdealStream.succeeding, ih, Except.isOk, Except.toBool]
    | draw => simp [IdealStream.run, IdealStream.succeeding, ih, Except.isOk, Except.toBool]
    | finish =>
      cases h : I.last m k with
      | ok out => simp [IdealStream.run, IdealStream.succeeding, ih, Except.isOk, Except.toBool, h]
      | error e => simp [IdealStream.run, IdealStream.succeeding, ih, Except.isOk, Except.toBool, h]

/-- With the invariant of encrypting streams: what is pending is empty exactly when the message is aligned. -/
theorem RGe.aligned {σ : Type} {f : σ → Bytes → σ × Bytes} {n : Nat} {s0 : σ} {m o : Bytes} {s : StreamSt σ} (h : RGe f n s0 m o s) :
    m.length % n = s.data.length := by
  obtain ⟨b, h1, h2, h3, -, -⟩ := h
  rw [h2, List.length_append, h1.length_flatten, Nat.mul_add_mod, Nat.mod_eq_of_lt h3]

theorem RGe.blocks {σ : Type} {f : σ → Bytes → σ × Bytes} {n : Nat} (hn : 0 < n) {s0 : σ} {m o : Bytes} {s : StreamSt σ} (h : RGe f n s0 m o s) :
    o ++ s.pond = (runPure f s0 (blocksOf n m)).2 ∧ s.st = (runPure f s0 (blocksOf n m)).1 := by
  obtain ⟨b, h1, h2, h3, h4, h5⟩ := h
  rw [h2, blocksOf_flatten hn h1 h3]
  exact ⟨h5, h4⟩

/-- The bytes before the last block, which may be short. -/
theorem RGt.blocks {σ : Type} {f : σ → Bytes → σ × Bytes} {n : Nat} (hn : 0 < n) {s0 : σ} {m o : Bytes} {s : StreamSt σ} (h : RGt f n s0 m o s) :
    ∃ b, IsBlocks n b ∧ b.flatten.length = n * ((m.length - 1) / n) ∧ m = b.flatten ++ s.data ∧ o ++ s.pond = (runPure f s0 b).2 ∧
      s.st = (runPure f s0 b).1 := by
  obtain ⟨b, h1, h2, h3, h3', h4, h5⟩ := h
  refine ⟨b, h1, ?_, h2, h5, h4⟩
  rw [h1.length_flatten]
  congr 1
  by_cases hm : m = []
  · subst hm
    have : b.flatten = [] := (List.append_eq_nil_iff.1 h2.symm).1
    have hl := h1.length_flatten
    rw [this] at hl
    have : b.length = 0 := by
      rcases Nat.eq_zero_or_pos b.length with h0 | h0
      · exact h0
      · have := Nat.mul_le_mul_left n h0
        rw [List.length_nil] at hl; omega
    simp [this]
  · have h0 := h3' hm
    have hl : m.length = n * b.length + s.data.length := by rw [h2, List.length_append, h1.length_flatten]
    rw [hl, show n * b.length + s.data.length - 1 = n * b.length + (s.data.length - 1) by omega, Nat.mul_add_div hn,
      Nat.div_eq_of_lt (by omega), Nat.add_zero]

theorem whileNe_nil {σ : Type} (n : Nat) (step : σ → Bytes → Res (σ × Bytes)) (s : σ) (dst : Bytes) (fuel : Nat) :
    whileLen contNe n step (fuel + 1) s dst [] = .ok (s, dst, []) := by
  simp [whileLen, contNe]

theorem whileNe_first_error {σ : Type} {n : Nat} {step : σ → Bytes → Res (σ × Bytes)} {s : σ} {data : Bytes} {e : Fault}
    (hd : data ≠ []) (h : step s (data.take n) = .error e) (dst : Bytes) (fuel : Nat) :
    whileLen contNe n step (fuel + 1) s dst data = .error e ∧ whilePart contNe n step (fuel + 1) s dst data = (s, dst) := by
  have : 0 < data.length := List.length_pos_iff.2 hd
  simp [whileLen, whilePart, contNe, this, h]

theorem RGt.split {σ : Type} {f : σ → Bytes → σ × Bytes} {n : Nat} (hn : 0 < n) {s0 : σ} {m o : Bytes} {s : StreamSt σ} (h : RGt f n s0 m o s)
    {dec : List Bytes → List Bytes} (hdec : ∀ bl, (dec bl).flatten = (runPure f s0 bl).2)
    (hlen : ∀ bl, IsBlocks n bl → (runPure f s0 bl).2.length = n * bl.length) :
    (dec (blocksOf n m)).flatten.take (n * ((m.length - 1) / n)) = o ++ s.pond ∧
      (s.data.length = n → (dec (blocksOf n m)).flatten.drop (n * ((m.length - 1) / n)) = (f s.st s.data).2) ∧
      (m = [] ∨ m.length % n ≠ 0 ↔ s.data.length ≠ n) := by
  obtain ⟨b, g1, g2, g3, g4, g5⟩ := h.blocks hn
  obtain ⟨-, -, -, h3, h3', -, -⟩ := h
  have hK : n * ((m.length - 1) / n) = (o ++ s.pond).length := by rw [g4, hlen _ g1, ← g2, g1.length_flatten]
  rw [hdec, hK]
  by_cases hd : s.data.length = n
  · have hb1 : IsBlocks n [s.data] := fun x hx => by rw [List.mem_singleton.1 hx]; exact hd
    have e : blocksOf n m = b ++ [s.data] := by
      rw [g3, blocksOf_append hn g1]
      have := blocksOf_flatten' hn hb1
      simpa using this
    have hlm : m.length % n = 0 := by rw [g3, List.length_append, g1.length_flatten, hd, Nat.mul_add_mod, Nat.mod_self]
    rw [e, runPure_append, ← g4, ← g5]
    refine ⟨List.take_left, fun _ => ?_, ?_⟩
    · rw [List.drop_left]; simp [runPure]
    · refine ⟨fun hh => ?_, fun hh => absurd hd hh⟩
      rcases hh with hh | hh
      · rw [hh] at g3
        rw [(List.append_eq_nil_iff.1 g3.symm).2] at hd; simp at hd; omega
      · exact absurd hlm hh
  · have hlt : s.data.length < n := by omega
    have e : blocksOf n m = b := by rw [g3, blocksOf_flatten hn g1 hlt]
    rw [e, ← g4, List.take_length]
    refine ⟨rfl, fun hh => absurd hh hd, fun _ => hd, fun _ => ?_⟩
    by_cases hm : m = []
    · exact .inl hm
    · right
      have := h3' hm
      rw [g3, List.length_append, g1.length_flatten, Nat.mul_add_mod, Nat.mod_eq_of_lt hlt]
      omega

/-- Equal-length outputs. -/
theorem length_runPure {σ : Type} {f : σ → Bytes → σ × Bytes} {n : Nat} (Inv : σ → Prop)
    (hf : ∀ s b, Inv s → b.length = n → Inv (f s b).1 ∧ (f s b).2.length = n) {s0 : σ} (h0 : Inv s0) (bl : List Bytes) (hb : IsBlocks n bl) :
    (runPure f s0 bl).2.length = n * bl.length := by
  induction bl generalizing s0 with
  | nil => rfl
  | cons b bs ih =>
    have := hf s0 b h0 hb.head
    rw [runPure, List.length_append, this.2, ih this.1 hb.tail, List.length_cons, Nat.mul_add, Nat.mul_one, Nat.add_comm]

theorem CounterOps.after_after {κ : Type} (ops : CounterOps κ) (k : κ) (a b : Nat) : ops.after (ops.after k a) b = ops.after k (a + b) := by
  induction a generalizing k with
  | zero => rw [Nat.zero_add]; rfl
  | succ a ih => rw [ops.after_succ, ih, Nat.succ_add, ops.after_succ]

end Verif.Model
