import Verif.Model.OutBuf
import Verif.Spec.OutBuf
import Verif.Proof.ECB
import Verif.Proof.CBC
import Verif.Proof.CFB
import Verif.Proof.OFB

/-! The methods on buffers refine the functional models. -/

namespace Verif.Model.OutBuf
open Verif.Spec

variable {τ : Type} {cb : Cipher τ} {c : BlockCipher}

/-- The object `cb` with its buffers behaves as `c` from every scratch state: both methods deliver the output or keep the buffer. -/
structure Fills (cb : Cipher τ) (c : BlockCipher) : Prop where
  size : cb.blockSize = c.blockSize
  enc : ∀ t dst b, DeliversOrKeeps dst (cb.encrypt t dst b).2 (c.encrypt b)
  dec : ∀ t dst b, DeliversOrKeeps dst (cb.decrypt t dst b).2 (c.decrypt b)

theorem Fills.bs (h : Fills cb c) : cb.bs = c.bs := by simp [Cipher.bs, BlockCipher.bs, h.size]

theorem pair3 {α β γ : Type} {x : α × β × γ} {b : β} {d : γ} (h : x.2 = (b, d)) : x = (x.1, b, d) := by
  rw [← h]

theorem Fills.encOk (h : Fills cb c) {b o : Bytes} (ho : c.encrypt b = .ok o) (t : τ) (dst : Bytes) : ∃ t', cb.encrypt t dst b = (t', o, .ok o.length) :=
  ⟨_, pair3 ((h.enc t dst b).1 o ho)⟩

theorem Fills.encErr (h : Fills cb c) {b : Bytes} {e} (ho : c.encrypt b = .error e) (t : τ) (dst : Bytes) : ∃ t', cb.encrypt t dst b = (t', dst, .error e) :=
  ⟨_, pair3 ((h.enc t dst b).2 e ho)⟩

theorem Fills.decOk (h : Fills cb c) {b o : Bytes} (ho : c.decrypt b = .ok o) (t : τ) (dst : Bytes) : ∃ t', cb.decrypt t dst b = (t', o, .ok o.length) :=
  ⟨_, pair3 ((h.dec t dst b).1 o ho)⟩

theorem Fills.decErr (h : Fills cb c) {b : Bytes} {e} (ho : c.decrypt b = .error e) (t : τ) (dst : Bytes) : ∃ t', cb.decrypt t dst b = (t', dst, .error e) :=
  ⟨_, pair3 ((h.dec t dst b).2 e ho)⟩

/-- A loop body on buffers does what `step` does. -/
def StepIs {τ σ : Type} (bstep : τ → σ → Bytes → τ × Res (σ × Bytes)) (step : σ → Bytes → Res (σ × Bytes)) : Prop :=
  ∀ t s b, (bstep t s b).2 = step s b

theorem whileBuf_ok {τ σ : Type} {cont : Nat → Bool} {n : Nat} {bstep : τ → σ → Bytes → τ × Res (σ × Bytes)} {step : σ → Bytes → Res (σ × Bytes)}
    (hs : StepIs bstep step) (fuel : Nat) (t : τ) (s : σ) (dst data : Bytes) {s' d r} (h : whileLen cont n step fuel s dst data = .ok (s', d, r)) :
    ∃ t', whileBuf cont n bstep fuel t s dst data = (t', d, .ok (s', r)) := by
  induction fuel generalizing t s dst data with
  | zero => simp [whileLen] at h
  | succ f ih =>
    simp only [whileLen, whileBuf] at h ⊢
    split at h
    · rename_i hc
      rw [if_pos hc]
      have he := hs t s (data.take n)
      rcases hp : bstep t s (data.take n) with ⟨t1, r1⟩
      rw [hp] at he
      dsimp only at he
      subst he
      cases hr : step s (data.take n) with
      | error e => rw [hr] at h; cases h
      | ok v =>
        obtain ⟨s1, o⟩ := v
        rw [hr] at h
        exact ih t1 s1 _ _ h
    · rename_i hc
      rw [if_neg hc]
      injection h with h
      injection h with h1 h
      injection h with h2 h3
      exact ⟨t, by rw [h1, h2, h3]⟩

theorem whileBuf_err {τ σ : Type} {cont : Nat → Bool} {n : Nat} {bstep : τ → σ → Bytes → τ × Res (σ × Bytes)} {step : σ → Bytes → Res (σ × Bytes)}
    (hs : StepIs bstep step) (fuel : Nat) (t : τ) (s : σ) (dst data : Bytes) {e} (h : whileLen cont n step fuel s dst data = .error e) :
    ∃ t' d, whileBuf cont n bstep fuel t s dst data = (t', d, .error e) := by
  induction fuel generalizing t s dst data with
  | zero => injection h with h; exact ⟨t, dst, by rw [whileBuf, h]⟩
  | succ f ih =>
    simp only [whileLen, whileBuf] at h ⊢
    split at h
    · rename_i hc
      rw [if_pos hc]
      have he := hs t s (data.take n)
      rcases hp : bstep t s (data.take n) with ⟨t1, r1⟩
      rw [hp] at he
      dsimp only at he
      subst he
      cases hr : step s (data.take n) with
      | error e' =>
        rw [hr] at h
        injection h with h
        exact ⟨t1, dst, by rw [h]⟩
      | ok v =>
        obtain ⟨s1, o⟩ := v
        rw [hr] at h
        exact ih t1 s1 _ _ h
    · cases h

/-- A loop whose first body fails leaves `dst` as it is. -/
theorem whileBuf_first {τ σ : Type} {cont : Nat → Bool} {n : Nat} {bstep : τ → σ → Bytes → τ × Res (σ × Bytes)} {step : σ → Bytes → Res (σ × Bytes)}
    (hs : StepIs bstep step) (fuel : Nat) (t : τ) (s : σ) (dst data : Bytes) {e} (hc : cont data.length = true) (h : step s (data.take n) = .error e) :
    ∃ t', whileBuf cont n bstep (fuel + 1) t s dst data = (t', dst, .error e) := by
  simp only [whileBuf, if_pos hc]
  have he := hs t s (data.take n)
  rcases hp : bstep t s (data.take n) with ⟨t1, r1⟩
  rw [hp] at he
  dsimp only at he
  rw [he, h]
  exact ⟨t1, rfl⟩

theorem ecbEnc_is (h : Fills cb c) : StepIs (ecbEnc cb) (ECB.encStep c) := by
  intro t s b
  cases hc : c.encrypt b with
  | ok o => obtain ⟨t', ht⟩ := h.encOk hc t.1 t.2; simp only [ecbEnc, ECB.encStep, ht, hc]; rfl
  | error e => obtain ⟨t', ht⟩ := h.encErr hc t.1 t.2; simp only [ecbEnc, ECB.encStep, ht, hc]; rfl

theorem tailEnc_is (h : Fills cb c) : StepIs (ecbEnc cb) (CBC.tailStep c) := ecbEnc_is h

theorem ecbDec_is (h : Fills cb c) : StepIs (ecbDec cb) (ECB.decStep c) := by
  intro t s b
  cases hc : c.decrypt b with
  | ok o => obtain ⟨t', ht⟩ := h.decOk hc t.1 t.2; simp only [ecbDec, ECB.decStep, ht, hc]; rfl
  | error e => obtain ⟨t', ht⟩ := h.decErr hc t.1 t.2; simp only [ecbDec, ECB.decStep, ht, hc]; rfl

theorem cbcEnc_is (h : Fills cb c) : StepIs (cbcEnc cb) (CBC.encStep c) := by
  intro t s b
  cases hc : c.encrypt (CBC.xorIv b s) with
  | ok o => obtain ⟨t', ht⟩ := h.encOk hc t.1 t.2; simp only [cbcEnc, CBC.encStep, ht, hc]; rfl
  | error e => obtain ⟨t', ht⟩ := h.encErr hc t.1 t.2; simp only [cbcEnc, CBC.encStep, ht, hc]; rfl

theorem cbcDec_is (h : Fills cb c) : StepIs (cbcDec cb) (CBC.decStep c) := by
  intro t s b
  cases hc : c.decrypt b with
  | ok o => obtain ⟨t', ht⟩ := h.decOk hc t.1 t.2; simp only [cbcDec, CBC.decStep, ht, hc]; rfl
  | error e => obtain ⟨t', ht⟩ := h.decErr hc t.1 t.2; simp only [cbcDec, CBC.decStep, ht, hc]; rfl

theorem cfbEnc_is (h : Fills cb c) (s : Nat) : StepIs (cfbEnc cb s) (CFB.encStep c s) := by
  intro t ij b
  cases hc : c.encrypt ij with
  | ok o => obtain ⟨t', ht⟩ := h.encOk hc t.1 t.2; simp only [cfbEnc, CFB.encStep, ht, hc]; rfl
  | error e => obtain ⟨t', ht⟩ := h.encErr hc t.1 t.2; simp only [cfbEnc, CFB.encStep, ht, hc]; rfl

theorem cfbDec_is (h : Fills cb c) (s : Nat) : StepIs (cfbDec cb s) (CFB.decStep c s) := by
  intro t ij b
  cases hc : c.encrypt ij with
  | ok o =>
    obtain ⟨t', ht⟩ := h.encOk hc t.1 t.2
    simp only [cfbDec, CFB.decStep, ht, hc, bind, Except.bind]
    split <;> rfl
  | error e => obtain ⟨t', ht⟩ := h.encErr hc t.1 t.2; simp only [cfbDec, CFB.decStep, ht, hc]; rfl

theorem ofbStep_is (h : Fills cb c) : StepIs (ofbStep cb) (OFB.step c) := by
  intro t s b
  cases hc : c.encrypt s with
  | ok o => obtain ⟨t', ht⟩ := h.encOk hc t.1 t.2; simp only [ofbStep, OFB.step, ht, hc]; rfl
  | error e => obtain ⟨t', ht⟩ := h.encErr hc t.1 t.2; simp only [ofbStep, OFB.step, ht, hc]; rfl

theorem ctrStep_is {κ : Type} (h : Fills cb c) (ops : CounterOps κ) : StepIs (ctrStep cb ops) (CTR.step c ops) := by
  intro t k b
  simp only [ctrStep, CTR.step]
  rw [h.bs]
  obtain ⟨v, k'⟩ := ops.next k
  cases v with
  | none => rfl
  | some v =>
    dsimp only
    split
    · rfl
    · cases hc : c.encrypt (v.take c.bs) with
      | ok o => obtain ⟨t', ht⟩ := h.encOk hc t.1 t.2; simp only [ht]; rfl
      | error e => obtain ⟨t', ht⟩ := h.encErr hc t.1 t.2; simp only [ht]; rfl

/-- Unpadding at the end of a method. -/
theorem unpadAt_delivers (p : Padding) (t : τ) (dst : Bytes) : Delivers (unpadAt p t dst).2 (p.unpad dst) := by
  unfold unpadAt Padding.unpad
  cases p with
  | empty => exact ⟨fun o ho => by injection ho with ho; subst ho; rfl, fun e he => by cases he⟩
  | default n =>
    simp only [Padding.unpadding]
    split
    · exact ⟨fun o ho => by injection ho with ho; subst ho; rfl, fun e he => by cases he⟩
    · exact ⟨fun o ho => by (cases ho), fun e he => by injection he with he; subst he; rfl⟩

theorem unpad_error_keeps (p : Padding) (t : τ) (dst : Bytes) {e} (h : p.unpad dst = .error e) : unpadAt p t dst = (t, dst, .error e) := by
  unfold unpadAt
  cases p with
  | empty => cases h
  | default n =>
    simp only [Padding.unpad, Padding.unpadding] at h ⊢
    cases hs : unpadScan dst.reverse 0 with
    | some k => rw [hs] at h; cases h
    | none => rw [hs] at h; injection h with h; rw [h]

end Verif.Model.OutBuf
