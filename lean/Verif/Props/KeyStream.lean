import Verif.Props.CTR
import Verif.Props.OFB
import Mathlib.Data.Nat.ModEq

/-!
# C74: key stream is used once

Over the life of an object: several calls, the clone of a used object, the stream made from a used object.
-/

namespace Verif.Props
open Verif.Model Verif.Spec

variable {c : BlockCipher} {E D : Bytes → Bytes}

/-- One call: an `encrypt` (`false`) or a `decrypt` (`true`). -/
def ctrCall (c : BlockCipher) (k : DefaultCounter) (x : Bool × Bytes) : Res (DefaultCounter × Bytes) :=
  if x.1 then CTR.decrypt c DefaultCounter.ops k x.2 else CTR.encrypt c DefaultCounter.ops k x.2

/-- One CTR object used for several calls in a row: the outputs. -/
def ctrCalls (c : BlockCipher) (k : DefaultCounter) : List (Bool × Bytes) → Res (DefaultCounter × List Bytes)
  | [] => .ok (k, [])
  | x :: rest => do
    let (k, out) ← ctrCall c k x
    let (k, outs) ← ctrCalls c k rest
    .ok (k, out :: outs)

/-- The number of blocks that the messages start. -/
def startedBlocks (n : Nat) (calls : List (Bool × Bytes)) : Nat := (calls.map fun x => (x.2.length + n - 1) / n).sum

theorem after_after {κ : Type} (ops : CounterOps κ) (k : κ) (n i : Nat) : ops.after (ops.after k n) i = ops.after k (n + i) := by
  induction i with
  | zero => rfl
  | succ i ih => rw [← Nat.add_assoc, CounterOps.after, CounterOps.after, ih]

theorem ctrCalls_eq (h : Lawful c E D) (iv : Bytes) (k : DefaultCounter) (h1 : DefaultCounter.new iv (c.bs * 8) = .ok k)
    (h2 : CTR.new c DefaultCounter.ops k = .ok k) (calls : List (Bool × Bytes)) (n : Nat) :
    ∃ k' outs, ctrCalls c (DefaultCounter.ops.after k n) calls = .ok (k', outs) ∧ outs.length = calls.length ∧
      ∀ a (ha : a < calls.length) (ho : a < outs.length),
        outs[a] = ctr E c.bs (fun i => toBE c.bs (beNat iv + (n + startedBlocks c.bs (calls.take a)) + i)) calls[a].2 := by
  induction calls generalizing n with
  | nil => exact ⟨_, _, rfl, rfl, fun a ha => absurd ha (by simp)⟩
  | cons x rest ih =>
    obtain ⟨dec, m⟩ := x
    have hv := C14_default_counter (c := c) _ _ _ h1 h2
    have hlen : (c.bs * 8 + 7) / 8 = c.bs := by omega
    have hn : ∀ i, DefaultCounter.ops.value (DefaultCounter.ops.after k n) i = some (toBE c.bs (beNat iv + n + i)) ∧
        c.bs ≤ (toBE c.bs (beNat iv + n + i)).length := by
      intro i
      refine ⟨?_, by simp⟩
      rw [CounterOps.value, after_after, Nat.add_assoc]
      have := (hv (n + i)).1
      rwa [hlen] at this
    have e := (C14_ctr_roundtrip h _ _ hn m).1
    have hstep : ctrCall c (DefaultCounter.ops.after k n) (dec, m) =
        .ok (DefaultCounter.ops.after k (n + (m.length + c.bs - 1) / c.bs), ctr E c.bs (fun i => toBE c.bs (beNat iv + n + i)) m) := by
      have : CTR.decrypt c DefaultCounter.ops (DefaultCounter.ops.after k n) m = CTR.encrypt c DefaultCounter.ops (DefaultCounter.ops.after k n) m := rfl
      rw [ctrCall]
      simp only
      rw [this, ite_self, e, after_after]
      congr 3
      funext i
      rw [List.take_of_length_le (by simp)]
    obtain ⟨k', outs, g1, g2, g3⟩ := ih (n + (m.length + c.bs - 1) / c.bs)
    refine ⟨k', ctr E c.bs (fun i => toBE c.bs (beNat iv + n + i)) m :: outs, ?_, by simp [g2], ?_⟩
    · unfold ctrCalls
      rw [hstep]
      show (ctrCalls c _ rest >>= _) = _
      rw [g1]; rfl
    · intro a ha ho
      cases a with
      | zero => simp [startedBlocks]
      | succ a =>
        simp only [List.getElem_cons_succ]
        rw [g3 a (by simpa using ha) (by simpa using ho)]
        congr 1
        funext i
        congr 1
        simp only [startedBlocks, List.take_succ_cons, List.map_cons, List.sum_cons]
        omega

theorem started_take_le (n : Nat) (calls : List (Bool × Bytes)) (a b : Nat) (hab : a < b) (ha : a < calls.length) :
    startedBlocks n (calls.take a) + (calls[a].2.length + n - 1) / n ≤ startedBlocks n (calls.take b) := by
  have h1 : startedBlocks n (calls.take (a + 1)) = startedBlocks n (calls.take a) + (calls[a].2.length + n - 1) / n := by
    unfold startedBlocks
    rw [List.take_succ_eq_append_getElem ha, List.map_append, List.sum_append]; simp
  rw [← h1]
  unfold startedBlocks
  rw [show calls.take b = calls.take (a + 1) ++ (calls.take b).drop (a + 1) by
    conv_lhs => rw [← List.take_append_drop (a + 1) (calls.take b), List.take_take, Nat.min_eq_left (by omega)]]
  rw [List.map_append, List.sum_append]
  omega

/-- C74 for calls on one object with a counter one block wide: any sequence of `encrypt` and `decrypt` calls that starts at most `256^bs` blocks
altogether succeeds, and no two whole blocks, of the same or of different messages, are masked with the same key stream. -/
theorem C74_ctr_calls (h : Lawful c E D) (iv : Bytes) (k : DefaultCounter) (h1 : DefaultCounter.new iv (c.bs * 8) = .ok k)
    (h2 : CTR.new c DefaultCounter.ops k = .ok k) (calls : List (Bool × Bytes)) (ht : startedBlocks c.bs calls ≤ 256 ^ c.bs) :
    ∃ k' outs, ctrCalls c k calls = .ok (k', outs) ∧ outs.length = calls.length ∧
      ∀ a (ha : a < calls.length) (oa : a < outs.length) b (hb : b < calls.length) (ob : b < outs.length) i j,
        (i + 1) * c.bs ≤ calls[a].2.length → (j + 1) * c.bs ≤ calls[b].2.length → ¬ (a = b ∧ i = j) →
        recovered c.bs calls[a].2 outs[a] i ≠ recovered c.bs calls[b].2 outs[b] j := by
  obtain ⟨k', outs, g1, g2, g3⟩ := ctrCalls_eq h iv k h1 h2 calls 0
  refine ⟨k', outs, g1, g2, fun a ha oa b hb ob i j hi hj hne => ?_⟩
  rw [g3 a ha oa, g3 b hb ob]
  have hl : ∀ t i, (E (toBE c.bs (t + i))).length = c.bs := fun t i => h.lenE _ (by simp)
  rw [ctr, recovered_streamXor _ h.pos (fun i => hl _ i) _ _ hi, ctr, recovered_streamXor _ h.pos (fun i => hl _ i) _ _ hj]
  intro he
  have he := congrArg D he
  rw [h.DE _ (by simp), h.DE _ (by simp), toBE_inj] at he
  have hpos := h.pos
  have key : ∀ (m : Bytes) i, (i + 1) * c.bs ≤ m.length → i < (m.length + c.bs - 1) / c.bs := by
    intro m i hi
    rw [← Nat.succ_le_iff, Nat.le_div_iff_mul_le hpos]
    show (i + 1) * c.bs ≤ _
    omega
  have ki := key _ _ hi
  have kj := key _ _ hj
  have tot : ∀ a (ha : a < calls.length), startedBlocks c.bs (calls.take a) + (calls[a].2.length + c.bs - 1) / c.bs ≤ 256 ^ c.bs := by
    intro a ha
    have := started_take_le c.bs calls a calls.length ha ha
    rw [List.take_length] at this
    omega
  have ta := tot a ha
  have tb := tot b hb
  have heq : startedBlocks c.bs (calls.take a) + i = startedBlocks c.bs (calls.take b) + j := by
    have hm : Nat.ModEq (256 ^ c.bs) (beNat iv + (0 + startedBlocks c.bs (calls.take a)) + i) (beNat iv + (0 + startedBlocks c.bs (calls.take b)) + j) := he
    rw [Nat.zero_add, Nat.zero_add, Nat.add_assoc, Nat.add_assoc] at hm
    exact (Nat.ModEq.add_left_cancel' _ hm).eq_of_lt_of_lt (by omega) (by omega)
  rcases Nat.lt_trichotomy a b with hab | hab | hab
  · have := started_take_le c.bs calls a b hab ha; omega
  · subst hab; exact hne ⟨rfl, by omega⟩
  · have := started_take_le c.bs calls b a hab hb; omega

/-- The hypotheses are met: a counter that wraps around, an encryption followed by a decryption. -/
example : DefaultCounter.new [0xff, 0xff] ((Toy.cipher 2).bs * 8) = .ok ⟨16, [0xff, 0xff], none⟩ ∧
    CTR.new (Toy.cipher 2) DefaultCounter.ops ⟨16, [0xff, 0xff], none⟩ = .ok ⟨16, [0xff, 0xff], none⟩ ∧
    startedBlocks (Toy.cipher 2).bs [(false, [1, 2, 3]), (true, [4, 5])] ≤ 256 ^ (Toy.cipher 2).bs ∧
    ctrCalls (Toy.cipher 2) ⟨16, [0xff, 0xff], none⟩ [(false, [1, 2, 3]), (true, [4, 5])] = .ok (⟨16, [0xff, 0xff], some [0, 1]⟩, [[1, 2, 2], [6, 4]]) := by
  decide

/-- Two messages share key stream: their known plaintexts reveal the same blocks wherever both are long enough. -/
def SameKeyStream (n : Nat) (m₁ ct₁ m₂ ct₂ : Bytes) : Prop :=
  ∀ i, (i + 1) * n ≤ m₁.length → (i + 1) * n ≤ m₂.length → recovered n m₁ ct₁ i = recovered n m₂ ct₂ i

theorem reset_after (k : DefaultCounter) (n : Nat) : (DefaultCounter.ops.after k n).reset = k.reset := by
  induction n with
  | zero => rfl
  | succ n ih => rw [← ih]; rfl

theorem new_reset {iv : Bytes} {bits : Nat} {k : DefaultCounter} (h : DefaultCounter.new iv bits = .ok k) : k.reset = k := by
  unfold DefaultCounter.new at h
  split at h
  · cases h
  · injection h with h; subst h; rfl

theorem ctr_same (h : Lawful c E D) (v : Nat → Bytes) (hv : ∀ i, c.bs ≤ (v i).length) (m₁ m₂ : Bytes) :
    SameKeyStream c.bs m₁ (ctr E c.bs (fun i => (v i).take c.bs) m₁) m₂ (ctr E c.bs (fun i => (v i).take c.bs) m₂) := by
  intro i h1 h2
  have hl : ∀ i, (E ((v i).take c.bs)).length = c.bs := fun i => h.lenE _ (by have := hv i; simp; omega)
  rw [ctr, recovered_streamXor _ h.pos hl _ _ h1, ctr, recovered_streamXor _ h.pos hl _ _ h2]

/-- C74 is false of the code for clones: whatever a CTR object has encrypted, its clone (ctr.rs:125-135) starts over, so that the next message is
masked with the key stream of the first one. For every cipher, counter and pair of messages. -/
theorem C74_ctr_clone_refuted (h : Lawful c E D) (iv : Bytes) (bits : Nat) (k : DefaultCounter) (h1 : DefaultCounter.new iv bits = .ok k)
    (h2 : CTR.new c DefaultCounter.ops k = .ok k) (m₁ m₂ : Bytes) :
    ∃ k₁ ct₁ k₂ ct₂, CTR.encrypt c DefaultCounter.ops k m₁ = .ok (k₁, ct₁) ∧ CTR.encrypt c DefaultCounter.ops k₁.clone m₂ = .ok (k₂, ct₂) ∧
      SameKeyStream c.bs m₁ ct₁ m₂ ct₂ := by
  have hv := C14_default_counter (c := c) _ _ _ h1 h2
  have hvk := fun i => And.intro (hv i).1 (hv i).2.1
  refine ⟨_, _, DefaultCounter.ops.after k ((m₂.length + c.bs - 1) / c.bs), _, (C14_ctr_roundtrip h _ _ hvk m₁).1, ?_,
    ctr_same h _ (fun i => (hv i).2.1) m₁ m₂⟩
  · have : (DefaultCounter.ops.after k ((m₁.length + c.bs - 1) / c.bs)).clone = k := (reset_after k _).trans (new_reset h1)
    rw [this]
    exact (C14_ctr_roundtrip h _ _ hvk m₂).1

/-- C74 is false of the code for streams made from a used object (ctr.rs:88-102): the stream starts over. -/
theorem C74_ctr_into_stream_refuted (h : Lawful c E D) (iv : Bytes) (bits : Nat) (k : DefaultCounter) (h1 : DefaultCounter.new iv bits = .ok k)
    (h2 : CTR.new c DefaultCounter.ops k = .ok k) (m₁ : Bytes) (wr : List (Bytes × Bool)) :
    ∃ k₁ ct₁ s ct₂, CTR.encrypt c DefaultCounter.ops k m₁ = .ok (k₁, ct₁) ∧
      runStream (CTR.stream c DefaultCounter.ops) (CTR.init DefaultCounter.ops k₁) wr = .ok (ct₂, s) ∧
      SameKeyStream c.bs m₁ ct₁ (written wr) ct₂ := by
  have hv := C14_default_counter (c := c) _ _ _ h1 h2
  have hvk := fun i => And.intro (hv i).1 (hv i).2.1
  obtain ⟨s, hs⟩ := C14_ctr_stream h (DefaultCounter.ops.after k ((m₁.length + c.bs - 1) / c.bs)) (fun i => toBE ((bits + 7) / 8) (beNat iv + i))
    (fun i => by
      have : DefaultCounter.ops.reset (DefaultCounter.ops.after k ((m₁.length + c.bs - 1) / c.bs)) = k := (reset_after k _).trans (new_reset h1)
      rw [this]; exact hvk i) wr
  exact ⟨_, _, _, _, (C14_ctr_roundtrip h _ _ hvk m₁).1, hs, ctr_same h _ (fun i => (hv i).2.1) m₁ _⟩

/-- C74 is false of the code for OFB: two messages encrypted with one object are masked with the same key stream, unless the user sets a new IV in
between. -/
theorem C74_ofb_refuted (h : Lawful c E D) (iv : Bytes) (hiv : iv.length = c.bs) (m₁ m₂ : Bytes) :
    ∃ ct₁ ct₂, OFB.encrypt c iv m₁ = .ok ct₁ ∧ OFB.encrypt c iv m₂ = .ok ct₂ ∧ SameKeyStream c.bs m₁ ct₁ m₂ ct₂ := by
  refine ⟨_, _, (C13_ofb_roundtrip h iv m₁ hiv).1, (C13_ofb_roundtrip h iv m₂ hiv).1, fun i h1 h2 => ?_⟩
  rw [ofb, recovered_streamXor _ h.pos (OFB.length_ofbBlock h hiv) _ _ h1, ofb, recovered_streamXor _ h.pos (OFB.length_ofbBlock h hiv) _ _ h2]

/-- The clone of a used object, on concrete messages. -/
example : CTR.encrypt (Toy.cipher 2) DefaultCounter.ops ⟨16, [7, 7], none⟩ [1, 2] = .ok (⟨16, [7, 7], some [7, 7]⟩, [9, 10]) ∧
    CTR.encrypt (Toy.cipher 2) DefaultCounter.ops (DefaultCounter.clone ⟨16, [7, 7], some [7, 7]⟩) [3, 4] = .ok (⟨16, [7, 7], some [7, 7]⟩, [11, 12]) ∧
    recovered 2 [1, 2] [9, 10] 0 = recovered 2 [3, 4] [11, 12] 0 := by decide

end Verif.Props
