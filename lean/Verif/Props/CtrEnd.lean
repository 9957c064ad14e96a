import Verif.Proof.CtrEnd
import Verif.Proof.Toy

/-!
# C118: CTR with a counter that ends

The specification is Verif/Spec/CtrEnd.lean.
-/

namespace Verif.Props
open Verif.Model Verif.Spec
open Verif.Spec.CtrEnd (Op Out given bytes)

variable {c : BlockCipher} {E D : Bytes → Bytes} {κ : Type} {ops : CounterOps κ}

/-- C118: every history of `write`, drawing off, `finish`, `reset` and single `encrypt`/`decrypt` calls on a CTR object whose counter has exactly the `N` values
`v 0`, …, `v (N - 1)`: what each call returns and hands out. -/
theorem C118_history (h : Lawful c E D) (k : κ) (v : Nat → Bytes) (N : Nat) (hv : ∀ i, i < N → ops.value k i = some (v i) ∧ c.bs ≤ (v i).length)
    (hs : ∀ i, N ≤ i → ops.value k i = none) (hr : ∀ j, ops.reset (ops.after k j) = k) (hist : List Op) :
    CtrEnd.run c ops (CTR.init ops k) hist = Spec.CtrEnd.run (fun i => E ((v i).take c.bs)) c.bs N Spec.CtrEnd.St.new hist :=
  CtrEnd.run_end h ⟨hv, hs⟩ hr hist ⟨rfl, rfl, 0, hr 0, Nat.zero_le _, fun _ => rfl, fun h => by have : N = 0 := h.symm; omega⟩

/-- C118: a message written in any pieces, with drawing off anywhere, then `finish`. What is handed out is always a beginning of the textbook ciphertext. If the
counter has enough values no call is refused and it is all of it; otherwise `finish` is refused. -/
theorem C118_message (h : Lawful c E D) (k : κ) (v : Nat → Bytes) (N : Nat) (hv : ∀ i, i < N → ops.value k i = some (v i)) (hl : ∀ i, c.bs ≤ (v i).length)
    (hs : ∀ i, N ≤ i → ops.value k i = none) (hr : ∀ j, ops.reset (ops.after k j) = k) (hist : List Op)
    (hh : ∀ op ∈ hist, op = .draw ∨ ∃ d, op = .write d) :
    ∃ rs f, CtrEnd.run c ops (CTR.init ops k) (hist ++ [.finish]) = rs ++ [f] ∧
      (bytes (rs ++ [f]) <+: ctr E c.bs (fun i => (v i).take c.bs) (given hist)) ∧
      ((given hist).length ≤ c.bs * N →
        (∀ r ∈ rs, r.error = none) ∧ f.error = none ∧ bytes (rs ++ [f]) = ctr E c.bs (fun i => (v i).take c.bs) (given hist)) ∧
      (c.bs * N < (given hist).length → f = ⟨some (.err .innerErr), []⟩) := by
  rw [C118_history h k v N (fun i hi => ⟨hv i hi, hl i⟩) hs hr]
  exact CtrEnd.message _ h.pos (fun i => h.lenE _ (by rw [List.length_take]; have := hl i; omega)) hist hh

/-- C118: after a call was refused and what is ready was drawn off, nothing is handed out until the next `reset`, whatever is called, and every further text is
refused. -/
theorem C118_after_refusal (h : Lawful c E D) (k : κ) (v : Nat → Bytes) (N : Nat) (hv : ∀ i, i < N → ops.value k i = some (v i) ∧ c.bs ≤ (v i).length)
    (hs : ∀ i, N ≤ i → ops.value k i = none) (hr : ∀ j, ops.reset (ops.after k j) = k) (before : List Op) (op : Op) (later : List Op)
    (hl : ∀ o ∈ later, o ≠ .reset) (m : Bytes) (hm : m ≠ []) :
    ∃ r a b r' z, CtrEnd.run c ops (CTR.init ops k) (before ++ ([op, .draw] ++ (later ++ [.single m]))) = r ++ ([a, b] ++ (r' ++ [z])) ∧
      r.length = before.length ∧ r'.length = later.length ∧
      (a.error ≠ none → bytes r' = [] ∧ z = ⟨some (.err .innerErr), []⟩) := by
  rw [C118_history h k v N hv hs hr]
  have hlen : ∀ (l : List Op) x, (Spec.CtrEnd.run (fun i => E ((v i).take c.bs)) c.bs N x l).length = l.length := by
    intro l
    induction l with
    | nil => intro x; rfl
    | cons o l ih => intro x; rw [Spec.CtrEnd.run, List.length_cons, ih, List.length_cons]
  rw [CtrEnd.run_append, CtrEnd.run_append, CtrEnd.run_append]
  generalize hx : CtrEnd.after (fun i => E ((v i).take c.bs)) c.bs N Spec.CtrEnd.St.new before = x
  refine ⟨_, _, _, _, _, rfl, hlen _ _, hlen _ _, fun ha => ?_⟩
  have hu := CtrEnd.refused_used _ _ _ x op ha
  obtain ⟨e1, e2⟩ := CtrEnd.silent (fun i => E ((v i).take c.bs)) (n := c.bs) later
    (CtrEnd.after (fun i => E ((v i).take c.bs)) c.bs N x [op, .draw]) hu rfl hl
  refine ⟨e1, ?_⟩
  simp only [Spec.CtrEnd.call]
  rw [e2, CtrEnd.served_end, CtrEnd.enough_end h.pos hm]
  rfl

/-- C118: a call that is not refused is the call of C14, for every cipher and every counter, and a call that is refused there is refused here with the same
error: the objects of C14 and of C118 are the same. -/
theorem C118_same_object (c : BlockCipher) (ops : CounterOps κ) (s : StreamSt κ) (d : Bytes) :
    (CTR.write c ops s d = match CtrEnd.write c ops s d with
      | (none, s') => .ok s'
      | (some e, _) => .error e) ∧
    (CTR.finish c ops s = match CtrEnd.finish c ops s with
      | (⟨none, o⟩, s') => .ok (o, s')
      | (⟨some e, _⟩, _) => .error e) ∧
    (CTR.encrypt c ops s.st d = match CtrEnd.single c ops s d with
      | (⟨none, o⟩, s') => .ok (s'.st, o)
      | (⟨some e, _⟩, _) => .error e) ∧
    CTR.decrypt c ops s.st d = CTR.encrypt c ops s.st d := by
  refine ⟨?_, ?_, ?_, rfl⟩
  · rw [CTR.write, CtrEnd.write]
    split
    · rfl
    · simp only [CtrEnd.inner_model]
      generalize CtrEnd.inner c ops s.st s.pond _ = r
      obtain ⟨t, k', dst', rest, e⟩ := r
      cases e <;> rfl
  · rw [CTR.finish, CtrEnd.finish, CtrEnd.inner_model]
    generalize CtrEnd.inner c ops s.st s.pond _ = r
    obtain ⟨t, k', dst', rest, e⟩ := r
    cases e <;> rfl
  · rw [CTR.encrypt, CtrEnd.single, CtrEnd.inner_model]
    generalize CtrEnd.inner c ops s.st [] _ = r
    obtain ⟨t, k', dst', rest, e⟩ := r
    cases e <;> rfl

/-- A caller's counter over a list of values. -/
def listCounter (l : List Bytes) (bits : Nat) : CounterOps (List Bytes) where
  reset _ := l
  next k := match k with
    | [] => (none, [])
    | a :: k => (some a, k)
  bitsLen _ := bits

theorem listCounter_after (l : List Bytes) (bits : Nat) (i : Nat) : (listCounter l bits).after l i = l.drop i := by
  induction i with
  | zero => rfl
  | succ i ih =>
    rw [CounterOps.after, ih]
    cases hd : l.drop i with
    | nil => rw [List.drop_eq_nil_of_le (by have := List.drop_eq_nil_iff.1 hd; omega)]; rfl
    | cons a r => rw [← List.drop_drop, hd]; rfl

theorem listCounter_value (l : List Bytes) (bits : Nat) (i : Nat) : (listCounter l bits).value l i = l[i]? := by
  rw [CounterOps.value, listCounter_after]
  cases hd : l.drop i with
  | nil => rw [List.getElem?_eq_none (List.drop_eq_nil_iff.1 hd)]; rfl
  | cons a r =>
    have := congrArg (·[0]?) hd
    simp only [List.getElem?_drop, Nat.add_zero] at this
    rw [this]; rfl

/-- C118: such a counter meets the hypotheses, whatever the (block-long) values are. -/
theorem C118_list_counter (l : List Bytes) (bits : Nat) (hl : ∀ a ∈ l, c.bs ≤ a.length) :
    (∀ i, i < l.length → (listCounter l bits).value l i = some (l.getD i (List.replicate c.bs 0#8)) ∧ c.bs ≤ (l.getD i (List.replicate c.bs 0#8)).length) ∧
    (∀ i, c.bs ≤ (l.getD i (List.replicate c.bs 0#8)).length) ∧
    (∀ i, l.length ≤ i → (listCounter l bits).value l i = none) ∧ (∀ j, (listCounter l bits).reset ((listCounter l bits).after l j) = l) := by
  have h2 : ∀ i, c.bs ≤ (l.getD i (List.replicate c.bs 0#8)).length := by
    intro i
    rw [List.getD_eq_getElem?_getD]
    by_cases hi : i < l.length
    · rw [List.getElem?_eq_getElem hi]; exact hl _ (List.getElem_mem hi)
    · rw [List.getElem?_eq_none (by omega)]; simp
  refine ⟨fun i hi => ⟨?_, h2 i⟩, h2, fun i hi => ?_, fun j => rfl⟩
  · rw [listCounter_value, List.getElem?_eq_getElem hi, List.getD_eq_getElem?_getD, List.getElem?_eq_getElem hi]; rfl
  · rw [listCounter_value, List.getElem?_eq_none hi]

example : CtrEnd.run (Toy.cipher 2) (listCounter [[0, 5], [0, 6]] 16) (CTR.init (listCounter [[0, 5], [0, 6]] 16) [[0, 5], [0, 6]])
    [.write [0, 0, 0], .draw, .write [0, 0, 0], .draw, .write [0], .finish, .single [7], .reset, .single [0, 0, 0], .single [1]] =
    [⟨none, []⟩, ⟨none, [6, 1]⟩, ⟨some (.err .innerErr), []⟩, ⟨none, [7, 1]⟩, ⟨some (.err .innerErr), []⟩, ⟨some (.err .innerErr), []⟩,
      ⟨some (.err .innerErr), []⟩, ⟨none, []⟩, ⟨none, [6, 1, 7]⟩, ⟨some (.err .innerErr), []⟩] := by decide

example (hist : List Op) : CtrEnd.run (Toy.cipher 2) (listCounter [[0, 5], [0, 6]] 16) (CTR.init (listCounter [[0, 5], [0, 6]] 16) [[0, 5], [0, 6]]) hist =
    Spec.CtrEnd.run (fun i => Toy.E ((([[0, 5], [0, 6]] : List Bytes).getD i (List.replicate 2 0#8)).take 2)) 2 2 Spec.CtrEnd.St.new hist := by
  obtain ⟨h1, -, h3, h4⟩ := C118_list_counter (c := Toy.cipher 2) [[0, 5], [0, 6]] 16 (by decide)
  exact C118_history (Toy.lawful 2 (by decide)) _ _ 2 h1 h3 h4 hist

/-- C118: `CTR::new` only looks at `bits_len()`. A counter that announces a block and gives a shorter value makes every call that reaches this value panic. -/
theorem C118_short_value_refuted (c : BlockCipher) (v : Bytes) (hv : v.length < c.bs) (m : Bytes) (hm : m ≠ []) :
    CTR.new c (listCounter [v] (8 * c.bs)) [v] = .ok [v] ∧
    (CtrEnd.single c (listCounter [v] (8 * c.bs)) (CTR.init (listCounter [v] (8 * c.bs)) [v]) m).1 = ⟨some .panic, []⟩ := by
  have hl := List.length_pos_iff.2 hm
  have hcn : contNe m.length = true := by simp [contNe]; omega
  refine ⟨?_, ?_⟩
  · simp [CTR.new, listCounter, Nat.mul_comm]
  · rw [CtrEnd.single, CtrEnd.inner, Flaky.loop, if_pos hcn]
    simp only [CtrEnd.step, CTR.init, listCounter, if_pos hv]

example := C118_short_value_refuted (Toy.cipher 2) [5] (by decide) [1, 2, 3] (by decide)

end Verif.Props
