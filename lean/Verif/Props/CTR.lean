import Verif.Proof.CTR
import Verif.Proof.Toy

/-! Properties C14, C15 -/

namespace Verif.Props
open Verif.Model Verif.Spec

variable {c : BlockCipher} {E D : Bytes → Bytes} {κ : Type} {ops : CounterOps κ}

/-- C14 for any counter `k` whose call number `i` delivers `v i`, at least one block long: one-shot CTR is the textbook stream cipher on the
leading block of each value, preserves length, advances the counter once per started block, and decryption with an equal counter undoes it. -/
theorem C14_ctr_roundtrip (h : Lawful c E D) (k : κ) (v : Nat → Bytes) (hv : ∀ i, ops.value k i = some (v i) ∧ c.bs ≤ (v i).length)
    (m : Bytes) :
    CTR.encrypt c ops k m = .ok (ops.after k ((m.length + c.bs - 1) / c.bs), ctr E c.bs (fun i => (v i).take c.bs) m) ∧
      (ctr E c.bs (fun i => (v i).take c.bs) m).length = m.length ∧
      CTR.decrypt c ops k (ctr E c.bs (fun i => (v i).take c.bs) m) = .ok (ops.after k ((m.length + c.bs - 1) / c.bs), m) := by
  have hk : CTR.Good c ops k := fun i => ⟨v i, hv i⟩
  have hin : CTR.input c ops k = fun i => (v i).take c.bs := by funext i; simp [CTR.input, (hv i).1]
  have hlen : ∀ i, (E ((v i).take c.bs)).length = c.bs := fun i => h.lenE _ (by rw [List.length_take]; have := (hv i).2; omega)
  have hl := length_streamXor (fun i => E ((v i).take c.bs)) h.pos hlen m
  refine ⟨?_, hl, ?_⟩
  · rw [CTR.encrypt, CTR.encryptInner_eq h hk, hin]; rfl
  · rw [CTR.decrypt, CTR.encryptInner_eq h hk, hin]
    simp only [ctr, hl, List.nil_append]
    rw [streamXor_invol _ h.pos hlen]
    rfl

/-- C14 for streams: any chunking and draw-off schedule gives the one-shot output of the reset counter. `CTRDecrypt` has the same code. -/
theorem C14_ctr_stream (h : Lawful c E D) (k : κ) (v : Nat → Bytes)
    (hv : ∀ i, ops.value (ops.reset k) i = some (v i) ∧ c.bs ≤ (v i).length) (wr : List (Bytes × Bool)) :
    ∃ s', runStream (CTR.stream c ops) (CTR.init ops k) wr = .ok (ctr E c.bs (fun i => (v i).take c.bs) (written wr), s') := by
  have hk : CTR.Good c ops (ops.reset k) := fun i => ⟨v i, hv i⟩
  have hin : CTR.input c ops (ops.reset k) = fun i => (v i).take c.bs := by funext i; simp [CTR.input, (hv i).1]
  obtain ⟨out, s', h1, h2⟩ := runStream_inv (str := CTR.stream c ops) (s := CTR.init ops k)
    (RGe (CTR.stepF c E ops) c.bs (ops.reset k)) (fun m o s d hR => CTR.write_inv h hk d hR) (fun _ _ _ hR => hR.draw) wr
    (RGe.init h.pos) (fun out s' => out = ctr E c.bs (fun i => (v i).take c.bs) (written wr)) (by
      rintro o s ⟨blocks, hb, hm, ht, hst, ho⟩
      have hg : CTR.Good c ops s.st := by rw [hst, CTR.runPure_stepF_fst]; exact hk.after _
      rw [← hin, hm, CTR.ctr_tail h hk hb ht, ← CTR.runPure_stepF_snd h hk hb, ← ho]
      show ∃ out s', CTR.finish c ops s = _ ∧ _
      unfold CTR.finish
      rw [CTR.encryptInner_eq h hg]
      refine ⟨_, _, rfl, ?_⟩
      rw [hst, CTR.runPure_stepF_fst, List.append_assoc])
  exact ⟨s', by rw [h1, h2]⟩

/-- The hypotheses of C14 hold for every `DefaultCounter` accepted by `CTR::new`, with `v i` the encoding of the initial value plus `i`. -/
theorem C14_default_counter (iv : Bytes) (bits : Nat) (k : DefaultCounter) (h1 : DefaultCounter.new iv bits = .ok k)
    (h2 : CTR.new c DefaultCounter.ops k = .ok k) (i : Nat) :
    DefaultCounter.ops.value k i = some (toBE ((bits + 7) / 8) (beNat iv + i)) ∧ c.bs ≤ (toBE ((bits + 7) / 8) (beNat iv + i)).length ∧
    DefaultCounter.ops.reset k = k := by
  unfold DefaultCounter.new at h1
  split at h1
  · cases h1
  · rename_i hlen
    injection h1 with h1; subst h1
    refine ⟨DefaultCounter.ops_value _ (by simp only; omega) rfl i, ?_, rfl⟩
    unfold CTR.new at h2
    split at h2
    · cases h2
    · rename_i hb
      simp only [DefaultCounter.ops] at hb
      rw [length_toBE]; omega

example : CTR.encrypt (Toy.cipher 2) DefaultCounter.ops ⟨16, [0xff, 0xff], none⟩ [1, 2, 3] =
    .ok (⟨16, [0xff, 0xff], some [0, 0]⟩, [1, 2, 2]) := by decide
example : runStream (CTR.stream (Toy.cipher 2) DefaultCounter.ops) (CTR.init DefaultCounter.ops ⟨16, [0xff, 0xff], none⟩)
    [([1], true), ([2, 3], false)] = .ok ([1, 2, 2], { data := [], pond := [], st := ⟨16, [0xff, 0xff], some [0, 0]⟩ }) := by decide

/-- C15 as a statement: encrypting any message, no two of its whole blocks (at most `256^bs` apart) are masked with the same keystream block. -/
def CtrNoReuse (c : BlockCipher) : Prop :=
  ∀ (iv : Bytes) (bits : Nat) (k : DefaultCounter), DefaultCounter.new iv bits = .ok k → CTR.new c DefaultCounter.ops k = .ok k →
    ∀ (m ct : Bytes) (k' : DefaultCounter), CTR.encrypt c DefaultCounter.ops k m = .ok (k', ct) →
      ∀ i j, i < j → j - i < 256 ^ c.bs → (j + 1) * c.bs ≤ m.length → recovered c.bs m ct i ≠ recovered c.bs m ct j

/-- C15 is false of the code for every cipher: a counter one byte wider than the block is accepted, and the first two blocks of every message
are masked with the same keystream. -/
theorem C15_ctr_no_reuse_fails (h : Lawful c E D) : ¬ CtrNoReuse c := by
  intro hall
  have h1 : DefaultCounter.new [] (c.bs * 8 + 8) = .ok ⟨c.bs * 8 + 8, [], none⟩ := by
    unfold DefaultCounter.new; rw [if_neg (by simp)]
  have h2 : CTR.new c DefaultCounter.ops ⟨c.bs * 8 + 8, [], none⟩ = .ok ⟨c.bs * 8 + 8, [], none⟩ := by
    unfold CTR.new; rw [if_neg (by simp [DefaultCounter.ops])]
  have hv := C14_default_counter (c := c) [] _ _ h1 h2
  have hlen : (c.bs * 8 + 8 + 7) / 8 = c.bs + 1 := by omega
  have hpos := h.pos
  have hp : 1 < 256 ^ c.bs := Nat.one_lt_pow (by omega) (by decide)
  have henc := (C14_ctr_roundtrip h _ _ (fun i => ⟨(hv i).1, (hv i).2.1⟩) (List.replicate (2 * c.bs) 0#8)).1
  have hl : ∀ i, (E ((toBE ((c.bs * 8 + 8 + 7) / 8) (beNat [] + i)).take c.bs)).length = c.bs :=
    fun i => h.lenE _ (by rw [List.length_take, length_toBE]; omega)
  apply hall [] _ _ h1 h2 _ _ _ henc 0 1 (by omega) (by omega) (by simp)
  rw [ctr, recovered_streamXor _ h.pos hl _ _ (by simp; omega), recovered_streamXor _ h.pos hl _ _ (by simp)]
  congr 1
  rw [hlen]
  apply List.ext_getElem
  · simp
  · intro i hi _
    simp only [List.length_take, length_toBE] at hi
    simp only [List.getElem_take, toBE, List.getElem_map, List.getElem_range, beNat, List.foldl_nil, Nat.zero_add]
    have h256 : 1 < 256 ^ (c.bs + 1 - 1 - i) := Nat.one_lt_pow (by omega) (by decide)
    rw [Nat.div_eq_of_lt h256, Nat.div_eq_of_lt (by omega)]

/-- C15, the part that holds: with a counter exactly one block wide every message can be encrypted, and no two of its blocks less than `256^bs`
apart are masked with the same keystream. Missing: wider counters, for which the code violates the property. -/
theorem C15_ctr_no_reuse_partial (h : Lawful c E D) (iv : Bytes) (k : DefaultCounter) (h1 : DefaultCounter.new iv (c.bs * 8) = .ok k)
    (h2 : CTR.new c DefaultCounter.ops k = .ok k) (m : Bytes) :
    ∃ k' ct, CTR.encrypt c DefaultCounter.ops k m = .ok (k', ct) ∧
      ∀ i j, i < j → j - i < 256 ^ c.bs → (j + 1) * c.bs ≤ m.length → recovered c.bs m ct i ≠ recovered c.bs m ct j := by
  have hlen : (c.bs * 8 + 7) / 8 = c.bs := by omega
  have hv := C14_default_counter (c := c) _ _ _ h1 h2
  refine ⟨_, _, (C14_ctr_roundtrip h _ _ (fun i => ⟨(hv i).1, (hv i).2.1⟩) m).1, fun i j hij hj hm => ?_⟩
  have hb : ∀ i, ((toBE ((c.bs * 8 + 7) / 8) (beNat iv + i)).take c.bs).length = c.bs := by
    intro i; rw [List.length_take, length_toBE]; omega
  have hl := fun i => h.lenE _ (hb i)
  have hi : (i + 1) * c.bs ≤ m.length := Nat.le_trans (Nat.mul_le_mul_right _ (by omega)) hm
  rw [ctr, recovered_streamXor _ h.pos hl _ _ hi, recovered_streamXor _ h.pos hl _ _ hm]
  intro he
  have he := congrArg D he
  rw [h.DE _ (hb i), h.DE _ (hb j), hlen, List.take_of_length_le (by simp), List.take_of_length_le (by simp), toBE_inj] at he
  have h1 := Nat.sub_mod_eq_zero_of_mod_eq he.symm
  rw [show beNat iv + j - (beNat iv + i) = j - i by omega, Nat.mod_eq_of_lt hj] at h1
  omega

example : DefaultCounter.new [1, 2] ((Toy.cipher 4).bs * 8) = .ok ⟨32, [1, 2], none⟩ ∧
    CTR.new (Toy.cipher 4) DefaultCounter.ops ⟨32, [1, 2], none⟩ = .ok ⟨32, [1, 2], none⟩ := ⟨rfl, rfl⟩
example : Lawful (Toy.cipher 4) Toy.E Toy.D := Toy.lawful 4 (by decide)

theorem take_toBE (w n x : Nat) (h : n ≤ w) : (toBE w x).take n = toBE n (x / 256 ^ (w - n)) := by
  apply List.ext_getElem
  · simp [h]
  · intro i hi _
    simp only [List.length_take, length_toBE] at hi
    simp only [List.getElem_take, toBE, List.getElem_map, List.getElem_range]
    rw [Nat.div_div_eq_div_mul, ← Nat.pow_add, show w - n + (n - 1 - i) = w - 1 - i by omega]

/-- C15, exactly, for every counter `CTR::new` accepts, of whatever width: two whole blocks of a message are masked with the same keystream block
exactly when the counter numbers agree in their leading `bs` bytes. So a counter `e` bytes wider than a block uses every keystream block for up
to `256^e` consecutive blocks. -/
theorem C15_ctr_reuse_exact (h : Lawful c E D) (iv : Bytes) (bits : Nat) (k : DefaultCounter) (h1 : DefaultCounter.new iv bits = .ok k)
    (h2 : CTR.new c DefaultCounter.ops k = .ok k) (m : Bytes) :
    ∃ k' ct, CTR.encrypt c DefaultCounter.ops k m = .ok (k', ct) ∧
      ∀ i j, (i + 1) * c.bs ≤ m.length → (j + 1) * c.bs ≤ m.length →
        (recovered c.bs m ct i = recovered c.bs m ct j ↔
          (beNat iv + i) / 256 ^ ((bits + 7) / 8 - c.bs) % 256 ^ c.bs = (beNat iv + j) / 256 ^ ((bits + 7) / 8 - c.bs) % 256 ^ c.bs) := by
  have hv := C14_default_counter (c := c) _ _ _ h1 h2
  have hw : c.bs ≤ (bits + 7) / 8 := by have := (hv 0).2.1; rwa [length_toBE] at this
  refine ⟨_, _, (C14_ctr_roundtrip h _ _ (fun i => ⟨(hv i).1, (hv i).2.1⟩) m).1, fun i j hi hj => ?_⟩
  have hb : ∀ i, ((toBE ((bits + 7) / 8) (beNat iv + i)).take c.bs).length = c.bs := by
    intro i; rw [List.length_take, length_toBE]; omega
  have hl := fun i => h.lenE _ (hb i)
  rw [ctr, recovered_streamXor _ h.pos hl _ _ hi, recovered_streamXor _ h.pos hl _ _ hj, ← toBE_inj, ← take_toBE _ _ _ hw, ← take_toBE _ _ _ hw]
  constructor
  · intro he
    have he := congrArg D he
    rwa [h.DE _ (hb i), h.DE _ (hb j)] at he
  · intro he; rw [he]

example : DefaultCounter.new [7] 40 = .ok ⟨40, [7], none⟩ ∧
    CTR.new (Toy.cipher 4) DefaultCounter.ops ⟨40, [7], none⟩ = .ok ⟨40, [7], none⟩ ∧
    (beNat [7] + 0) / 256 ^ ((40 + 7) / 8 - (Toy.cipher 4).bs) % 256 ^ (Toy.cipher 4).bs =
      (beNat [7] + 248) / 256 ^ ((40 + 7) / 8 - (Toy.cipher 4).bs) % 256 ^ (Toy.cipher 4).bs ∧
    (beNat [7] + 0) / 256 ^ ((40 + 7) / 8 - (Toy.cipher 4).bs) % 256 ^ (Toy.cipher 4).bs ≠
      (beNat [7] + 249) / 256 ^ ((40 + 7) / 8 - (Toy.cipher 4).bs) % 256 ^ (Toy.cipher 4).bs := by decide

end Verif.Props
