import Verif.Spec.Robust
import Verif.Proof.ECB
import Verif.Proof.CBC
import Verif.Proof.CFB
import Verif.Proof.CTR
import Verif.Model.OFB

/-! Helper lemmas: calls that end -/

namespace Verif.Spec
open Model

theorem Ends.ok {α : Type} (a : α) : Ends (.ok a : Res α) := .inl ⟨a, rfl⟩
theorem Ends.err {α : Type} (k : ErrKind) : Ends (.error (.err k) : Res α) := .inr ⟨k, rfl⟩

theorem Ends.bind {α β : Type} {r : Res α} {f : α → Res β} (h : Ends r) (hf : ∀ a, r = .ok a → Ends (f a)) : Ends (r >>= f) := by
  rcases h with ⟨a, ha⟩ | ⟨k, hk⟩
  · have := hf a ha
    rw [ha]; exact this
  · rw [hk]; exact .inr ⟨k, rfl⟩

theorem Ends.ite {α : Type} {p : Prop} [Decidable p] {a b : Res α} (ha : p → Ends a) (hb : ¬ p → Ends b) : Ends (if p then a else b) := by
  split
  · exact ha ‹_›
  · exact hb ‹_›

theorem Ends.ne_panic {α : Type} {r : Res α} (h : Ends r) : r ≠ .error .panic := by
  rcases h with ⟨a, rfl⟩ | ⟨k, rfl⟩ <;> simp

theorem Ends.ne_diverge {α : Type} {r : Res α} (h : Ends r) : r ≠ .error .diverge := by
  rcases h with ⟨a, rfl⟩ | ⟨k, rfl⟩ <;> simp

/-- A loop that shortens its data ends when its body does. -/
theorem Ends.whileLen {σ : Type} {cont : Nat → Bool} {n : Nat} {step : σ → Bytes → Res (σ × Bytes)} (Inv : σ → Prop) (hn : 0 < n)
    (h0 : cont 0 = false) (hs : ∀ s b, Inv s → Ends (step s b)) (hi : ∀ s b s' o, Inv s → step s b = .ok (s', o) → Inv s')
    (fuel : Nat) (s : σ) (dst data : Bytes) (hI : Inv s) (hf : data.length < fuel) : Ends (Model.whileLen cont n step fuel s dst data) := by
  induction fuel generalizing s dst data with
  | zero => omega
  | succ fuel ih =>
    rw [Model.whileLen]
    split
    case isTrue hc =>
      have hl : 0 < data.length := by
        rcases Nat.eq_zero_or_pos data.length with h | h
        · rw [h, h0] at hc; cases hc
        · exact h
      rcases hs s (data.take n) hI with ⟨⟨s', o⟩, ha⟩ | ⟨k, hk⟩
      · rw [ha]
        exact ih s' (dst ++ o) (data.drop n) (hi _ _ _ _ hI ha) (by simp; omega)
      · rw [hk]; exact .err k
    case isFalse => exact .ok _

theorem Ends.whileLen' {σ : Type} {cont : Nat → Bool} {n : Nat} {step : σ → Bytes → Res (σ × Bytes)} (hn : 0 < n)
    (h0 : cont 0 = false) (hs : ∀ s b, Ends (step s b)) (s : σ) (dst data : Bytes) :
    Ends (Model.whileLen cont n step (data.length + 1) s dst data) :=
  Ends.whileLen (fun _ => True) hn h0 (fun s b _ => hs s b) (fun _ _ _ _ _ _ => trivial) _ s dst data trivial (by omega)

theorem contGe_zero {n : Nat} (hn : 0 < n) : contGe n 0 = false := by simp [contGe]; omega
theorem contGt_zero (n : Nat) : contGt n 0 = false := by simp [contGt]
theorem contNe_zero : contNe 0 = false := by simp [contNe]

theorem Ends.unpad (p : Padding) (b : Bytes) : Ends (p.unpad b) := CFB.unpad_no_panic p b

variable {c : BlockCipher} {E D : Bytes → Bytes}

theorem Ends.encrypt (h : Lawful c E D) (b : Bytes) : Ends (c.encrypt b) := by
  by_cases hb : b.length = c.bs
  · rw [h.enc _ hb]; exact .ok _
  · rw [h.encErr _ hb]; exact .err _

theorem Ends.decrypt (h : Lawful c E D) (b : Bytes) : Ends (c.decrypt b) := by
  by_cases hb : b.length = c.bs
  · rw [h.dec _ hb]; exact .ok _
  · rw [h.decErr _ hb]; exact .err _

/-- A stream whose `write` ends and keeps an invariant, and whose `finish` ends, can be driven by any client. -/
theorem Ends.feed {σ : Type} {str : Stream σ} (Inv : StreamSt σ → Prop) (hw : ∀ s d, Inv s → Ends (str.write s d))
    (hi : ∀ s d s', Inv s → str.write s d = .ok s' → Inv s') (hd : ∀ s, Inv s → Inv { s with pond := [] })
    (ops : List (Bytes × Bool)) (s : StreamSt σ) (h : Inv s) :
    Ends (Model.feed str s ops) ∧ ∀ o s', Model.feed str s ops = .ok (o, s') → Inv s' := by
  induction ops generalizing s with
  | nil =>
    refine ⟨.ok _, ?_⟩
    intro o s' hs
    simp only [Model.feed, Except.ok.injEq, Prod.mk.injEq] at hs
    rw [← hs.2]; exact h
  | cons op ops ih =>
    obtain ⟨d, b⟩ := op
    simp only [Model.feed]
    rcases hw s d h with ⟨s1, h1⟩ | ⟨k, hk⟩
    · have h2 := hi s d s1 h h1
      rw [h1]
      simp only [Bind.bind, Except.bind]
      have h3 : Inv (if b = true then drawOff s1 else ([], s1)).2 := by
        cases b
        · exact h2
        · exact hd _ h2
      obtain ⟨i1, i2⟩ := ih _ h3
      rcases i1 with ⟨⟨o, s'⟩, hr⟩ | ⟨k, hk⟩
      · rw [hr]
        refine ⟨.ok _, ?_⟩
        intro o' s'' hs
        simp only [Except.ok.injEq, Prod.mk.injEq] at hs
        rw [← hs.2]; exact i2 _ _ hr
      · rw [hk]
        exact ⟨.err _, fun _ _ hs => by simp at hs⟩
    · rw [hk]
      exact ⟨.err _, fun _ _ hs => by simp [Bind.bind, Except.bind] at hs⟩

theorem Ends.runStream {σ : Type} {str : Stream σ} (Inv : StreamSt σ → Prop) (hw : ∀ s d, Inv s → Ends (str.write s d))
    (hi : ∀ s d s', Inv s → str.write s d = .ok s' → Inv s') (hd : ∀ s, Inv s → Inv { s with pond := [] })
    (hf : ∀ s, Inv s → Ends (str.finish s)) (ops : List (Bytes × Bool)) (s : StreamSt σ) (h : Inv s) :
    Ends (Model.runStream str s ops) := by
  obtain ⟨h1, h2⟩ := Ends.feed Inv hw hi hd ops s h
  unfold Model.runStream
  refine h1.bind fun ⟨o, s'⟩ ha => ?_
  exact (hf s' (h2 _ _ ha)).bind fun ⟨_, _⟩ _ => .ok _

end Verif.Spec
