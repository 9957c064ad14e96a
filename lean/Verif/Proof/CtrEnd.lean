import Verif.Model.CtrEnd
import Verif.Proof.CTR
import Verif.Proof.Flaky

/-! Helper lemmas about CTR with a counter that ends -/

namespace Verif.Model.CtrEnd
open Spec Spec.CtrEnd

variable {c : BlockCipher} {E D : Bytes → Bytes} {κ : Type} {ops : CounterOps κ}

/-- The counter gives the values `v 0`, …, `v (N - 1)` and then nothing. -/
structure Ends (c : BlockCipher) (ops : CounterOps κ) (k : κ) (v : Nat → Bytes) (N : Nat) : Prop where
  value : ∀ i, i < N → ops.value k i = some (v i) ∧ c.bs ≤ (v i).length
  stop : ∀ i, N ≤ i → ops.value k i = none

/-- After `j` calls of `next`, `i` of which gave a value. -/
def At (N j i : Nat) : Prop := i ≤ N ∧ (i < N → j = i) ∧ (i = N → N ≤ j)

theorem step_value (h : Lawful c E D) {k : κ} {v : Nat → Bytes} {N : Nat} (hk : Ends c ops k v N) {i : Nat} (hi : i < N) (b : Bytes) :
    step c ops (ops.after k i) b = (none, ops.after k (i + 1), xorBytes b (E ((v i).take c.bs))) := by
  obtain ⟨h1, h2⟩ := hk.value i hi
  rw [CounterOps.value] at h1
  rw [step, CounterOps.after]
  generalize ops.next (ops.after k i) = r at h1 ⊢
  obtain ⟨a, k'⟩ := r
  simp only at h1
  subst h1
  simp only [Nat.not_lt.2 h2, if_false]
  rw [h.enc _ (by rw [List.length_take]; omega)]

theorem step_stop {k : κ} {v : Nat → Bytes} {N : Nat} (hk : Ends c ops k v N) {i : Nat} (hi : N ≤ i) (b : Bytes) :
    step c ops (ops.after k i) b = (some (.err .innerErr), ops.after k (i + 1), []) := by
  have h1 := hk.stop i hi
  rw [CounterOps.value] at h1
  rw [step, CounterOps.after]
  generalize ops.next (ops.after k i) = r at h1 ⊢
  obtain ⟨a, k'⟩ := r
  simp only at h1
  subst h1
  rfl

theorem blocks_nil {n : Nat} (hn : 0 < n) : blocks n [] = 0 := by
  rw [blocks]; exact Nat.div_eq_of_lt (by simp; omega)

theorem blocks_succ {n : Nat} (hn : 0 < n) {d : Bytes} (hd : d ≠ []) : blocks n d = blocks n (d.drop n) + 1 := by
  have h1 : 0 < d.length := List.length_pos_iff.2 hd
  rw [blocks, blocks, List.length_drop]
  by_cases h : n ≤ d.length
  · rw [show d.length + n - 1 = (d.length - n + n - 1) + n by omega, Nat.add_div_right _ hn]
  · rw [show d.length - n + n - 1 = n - 1 by omega, Nat.div_eq_of_lt (by omega : n - 1 < n), show d.length + n - 1 = (d.length - 1) + n by omega,
      Nat.add_div_right _ hn, Nat.div_eq_of_lt (by omega)]

theorem served_end (key : Nat → Bytes) (n N : Nat) (d : Bytes) : served key n N N d = [] := by
  rw [served, Nat.sub_self, Nat.mul_zero, List.take_zero, streamXor_nil]

theorem served_nil (key : Nat → Bytes) (n N i : Nat) : served key n N i [] = [] := by
  rw [served, List.take_nil, streamXor_nil]

theorem served_succ (key : Nat → Bytes) {n N i : Nat} (hn : 0 < n) (hk : (key i).length = n) (hi : i < N) (d : Bytes) :
    served key n N i d = xorBytes (d.take n) (key i) ++ served key n N (i + 1) (d.drop n) := by
  have e : n * (N - i) = n + n * (N - (i + 1)) := by
    rw [show N - i = N - (i + 1) + 1 by omega, Nat.mul_add, Nat.mul_one, Nat.add_comm]
  have hf : (fun j => key (i + (j + 1))) = fun j => key (i + 1 + j) := by funext j; congr 1; omega
  rw [served, served]
  by_cases h : n ≤ d.length
  · have e2 : d.take (n * (N - i)) = d.take n ++ (d.drop n).take (n * (N - (i + 1))) := by rw [e, List.take_add]
    rw [e2, streamXor_cons _ hn hk (by rw [List.length_take]; omega), hf, Nat.add_zero]
  · rw [List.drop_eq_nil_of_le (by omega : d.length ≤ n), List.take_nil, streamXor_nil, List.append_nil, List.take_of_length_le (by omega : d.length ≤ n),
      List.take_of_length_le (by omega : d.length ≤ n * (N - i)), streamXor_short _ hn hk (by omega), Nat.add_zero]

theorem loop_end (h : Lawful c E D) {k : κ} {v : Nat → Bytes} {N : Nat} (hk : Ends c ops k v N) (fuel t : Nat) {i j : Nat} (hj : At N j i) (dst d : Bytes)
    (hf : d.length < fuel) :
    ∃ t' j' rest, Flaky.loop contNe c.bs (fun _ => step c ops) fuel t (ops.after k j) dst d =
        ⟨t', ops.after k j', dst ++ served (fun i => E ((v i).take c.bs)) c.bs N i d, rest, verdict (enough c.bs N i d)⟩ ∧
      At N j' (usedAfter c.bs N i d) := by
  have hn := h.pos
  obtain ⟨hj1, hj2, hj3⟩ := hj
  induction fuel generalizing t i j dst d with
  | zero => omega
  | succ fuel ih =>
    by_cases hd : d = []
    · subst hd
      refine ⟨t, j, [], ?_, ?_⟩
      · rw [Flaky.loop, served_nil, enough, blocks_nil hn, List.append_nil]
        simp [contNe, verdict, hj1]
      · rw [usedAfter, blocks_nil hn, Nat.add_zero, Nat.min_eq_right hj1]
        exact ⟨hj1, hj2, hj3⟩
    · have hl : 0 < d.length := List.length_pos_iff.2 hd
      have hc : contNe d.length = true := by simp [contNe]; omega
      have hb := blocks_succ hn hd
      rw [Flaky.loop, if_pos hc]
      by_cases hi : i < N
      · obtain rfl := hj2 hi
        rw [step_value h hk hi]
        obtain ⟨t', j', rest, e1, e2⟩ := ih (t + 1) (i := j + 1) (j := j + 1) (dst ++ xorBytes (d.take c.bs) (E ((v j).take c.bs))) (d.drop c.bs)
          (by rw [List.length_drop]; omega) (by omega) (fun _ => rfl) (fun h => by omega)
        refine ⟨t', j', rest, ?_, ?_⟩
        · simp only
          rw [e1, served_succ _ hn (h.lenE _ (by rw [List.length_take]; have := (hk.value j hi).2; omega)) hi, enough, enough, hb, List.append_assoc,
            show j + 1 + blocks c.bs (d.drop c.bs) = j + (blocks c.bs (d.drop c.bs) + 1) by omega]
        · rw [usedAfter, show j + 1 + blocks c.bs (d.drop c.bs) = j + blocks c.bs d by omega] at e2
          exact e2
      · have hiN : i = N := by omega
        subst hiN
        rw [step_stop hk (hj3 rfl)]
        refine ⟨t + 1, j + 1, d, ?_, ?_⟩
        · simp only
          rw [served_end, List.append_nil, enough, hb]
          simp [verdict]
        · rw [usedAfter, Nat.min_eq_left (by omega)]
          exact ⟨Nat.le_refl _, fun h => by omega, fun _ => by have := hj3 rfl; omega⟩

theorem inner_end (h : Lawful c E D) {k : κ} {v : Nat → Bytes} {N : Nat} (hk : Ends c ops k v N) {i j : Nat} (hj : At N j i) (dst d : Bytes) :
    ∃ t' j' rest, inner c ops (ops.after k j) dst d =
        ⟨t', ops.after k j', dst ++ served (fun i => E ((v i).take c.bs)) c.bs N i d, rest, verdict (enough c.bs N i d)⟩ ∧
      At N j' (usedAfter c.bs N i d) :=
  loop_end h hk _ 0 hj dst d (Nat.lt_succ_self _)

/-- The object corresponds to what the specification remembers. -/
def Rel (ops : CounterOps κ) (k : κ) (N : Nat) (x : Spec.CtrEnd.St) (s : StreamSt κ) : Prop :=
  s.data = x.pending ∧ s.pond = x.ready ∧ ∃ j, s.st = ops.after k j ∧ At N j x.used

theorem call_end (h : Lawful c E D) {k : κ} {v : Nat → Bytes} {N : Nat} (hk : Ends c ops k v N) (hr : ∀ j, ops.reset (ops.after k j) = k)
    {x : Spec.CtrEnd.St} {s : StreamSt κ} (hR : Rel ops k N x s) (op : Op) :
    (call c ops s op).1 = (Spec.CtrEnd.call (fun i => E ((v i).take c.bs)) c.bs N x op).1 ∧
    Rel ops k N (Spec.CtrEnd.call (fun i => E ((v i).take c.bs)) c.bs N x op).2 (call c ops s op).2 := by
  obtain ⟨pe, re, i⟩ := x
  obtain ⟨da, po, st⟩ := s
  obtain ⟨h1, h2, j, h3, h4⟩ := hR
  simp only at h1 h2 h3 h4
  subst h1 h2 h3
  cases op with
  | write d =>
    simp only [call, write, Spec.CtrEnd.call]
    by_cases hd : d = []
    · subst hd
      exact ⟨rfl, rfl, rfl, j, rfl, h4⟩
    · have hde : d.isEmpty = false := by simpa using hd
      have hb : (da ++ d).length - (da ++ d).length % c.bs = c.bs * ((da ++ d).length / c.bs) := by
        have := Nat.div_add_mod (da ++ d).length c.bs; omega
      simp only [hde, if_neg hd, hb]
      obtain ⟨t', j', rest, e1, e2⟩ := inner_end h hk h4 po (whole c.bs (da ++ d))
      rw [whole] at e1
      simp only [whole]
      simp only [whole] at e2
      rcases Bool.eq_false_or_eq_true (enough c.bs N i (List.take (c.bs * ((da ++ d).length / c.bs)) (da ++ d))) with he | he
      · rw [he] at e1; simp only [e1, he]; exact ⟨rfl, rfl, rfl, j', rfl, e2⟩
      · rw [he] at e1; simp only [e1, he]; exact ⟨rfl, rfl, rfl, j', rfl, e2⟩
  | draw =>
    simp only [call, write, Spec.CtrEnd.call]
    exact ⟨rfl, rfl, rfl, j, rfl, h4⟩
  | finish =>
    simp only [call, finish, Spec.CtrEnd.call]
    obtain ⟨t', j', rest, e1, e2⟩ := inner_end h hk h4 po da
    rw [e1]
    cases he : enough c.bs N i da
    · exact ⟨rfl, rfl, rfl, j', rfl, e2⟩
    · exact ⟨rfl, rfl, rfl, j', rfl, e2⟩
  | reset =>
    refine ⟨rfl, rfl, rfl, 0, hr j, Nat.zero_le _, fun _ => rfl, fun h => by have : N = 0 := h.symm; omega⟩
  | single m =>
    simp only [call, single, Spec.CtrEnd.call]
    obtain ⟨t', j', rest, e1, e2⟩ := inner_end h hk h4 [] m
    rw [e1]
    exact ⟨rfl, rfl, rfl, j', rfl, e2⟩

theorem run_end (h : Lawful c E D) {k : κ} {v : Nat → Bytes} {N : Nat} (hk : Ends c ops k v N) (hr : ∀ j, ops.reset (ops.after k j) = k)
    (hist : List Op) {x : Spec.CtrEnd.St} {s : StreamSt κ} (hR : Rel ops k N x s) :
    run c ops s hist = Spec.CtrEnd.run (fun i => E ((v i).take c.bs)) c.bs N x hist := by
  induction hist generalizing x s with
  | nil => rfl
  | cons op hist ih =>
    obtain ⟨e1, e2⟩ := call_end h hk hr hR op
    rw [run, Spec.CtrEnd.run, e1, ih e2]

/-! ## Consequences of the specification -/

/-- The object after a history, for the specification. -/
def after (key : Nat → Bytes) (n N : Nat) : Spec.CtrEnd.St → List Op → Spec.CtrEnd.St
  | x, [] => x
  | x, op :: ops => after key n N (Spec.CtrEnd.call key n N x op).2 ops

theorem run_append (key : Nat → Bytes) (n N : Nat) (x : Spec.CtrEnd.St) (h1 h2 : List Op) :
    Spec.CtrEnd.run key n N x (h1 ++ h2) = Spec.CtrEnd.run key n N x h1 ++ Spec.CtrEnd.run key n N (after key n N x h1) h2 := by
  induction h1 generalizing x with
  | nil => rfl
  | cons op h1 ih => rw [List.cons_append, Spec.CtrEnd.run, Spec.CtrEnd.run, ih, after, List.cons_append]

theorem not_enough {n N i : Nat} {d : Bytes} (h : verdict (enough n N i d) ≠ none) : usedAfter n N i d = N := by
  cases he : enough n N i d
  · rw [enough, decide_eq_false_iff_not] at he
    rw [usedAfter]; omega
  · rw [he] at h; exact absurd rfl h

theorem refused_used (key : Nat → Bytes) (n N : Nat) (x : Spec.CtrEnd.St) (op : Op) (h : (Spec.CtrEnd.call key n N x op).1.error ≠ none) :
    (Spec.CtrEnd.call key n N x op).2.used = N := by
  cases op with
  | write d =>
    simp only [Spec.CtrEnd.call] at h ⊢
    split at h
    · exact absurd rfl h
    · rename_i hd
      rw [if_neg hd]
      exact not_enough h
  | draw => exact absurd rfl h
  | finish =>
    simp only [Spec.CtrEnd.call] at h ⊢
    cases he : enough n N x.used x.pending
    · simp only [Bool.false_eq_true, if_false]
      exact not_enough (by rw [he]; simp [verdict])
    · rw [he] at h; exact absurd rfl h
  | reset => exact absurd rfl h
  | single m => exact not_enough h

theorem enough_end {n N : Nat} (hn : 0 < n) {d : Bytes} (hd : d ≠ []) : enough n N N d = false := by
  rw [enough, blocks_succ hn hd, decide_eq_false_iff_not]; omega

theorem usedAfter_end {n N : Nat} (d : Bytes) : usedAfter n N N d = N := by rw [usedAfter]; omega

theorem served_bytes_end (key : Nat → Bytes) {n N : Nat} (x : Spec.CtrEnd.St) (hx : x.used = N) (hr : x.ready = []) (op : Op) (hop : op ≠ .reset) :
    (Spec.CtrEnd.call key n N x op).1.bytes = [] ∧ (Spec.CtrEnd.call key n N x op).2.used = N ∧ (Spec.CtrEnd.call key n N x op).2.ready = [] := by
  obtain ⟨pe, re, i⟩ := x
  simp only at hx hr
  subst hx hr
  cases op with
  | write d =>
    simp only [Spec.CtrEnd.call]
    split
    · exact ⟨rfl, rfl, rfl⟩
    · exact ⟨rfl, usedAfter_end _, by rw [served_end]; rfl⟩
  | draw => exact ⟨rfl, rfl, rfl⟩
  | finish =>
    simp only [Spec.CtrEnd.call, served_end]
    split
    · exact ⟨rfl, usedAfter_end _, rfl⟩
    · exact ⟨rfl, usedAfter_end _, rfl⟩
  | reset => exact absurd rfl hop
  | single m => exact ⟨served_end _ _ _ _, usedAfter_end _, rfl⟩

theorem silent (key : Nat → Bytes) {n N : Nat} (hist : List Op) (x : Spec.CtrEnd.St) (hx : x.used = N) (hr : x.ready = []) (hh : ∀ op ∈ hist, op ≠ .reset) :
    bytes (Spec.CtrEnd.run key n N x hist) = [] ∧ (after key n N x hist).used = N := by
  induction hist generalizing x with
  | nil => exact ⟨rfl, hx⟩
  | cons op hist ih =>
    obtain ⟨e1, e2, e3⟩ := served_bytes_end key (n := n) x hx hr op (hh op (by simp))
    obtain ⟨i1, i2⟩ := ih _ e2 e3 (fun o ho => hh o (by simp [ho]))
    rw [Spec.CtrEnd.run, after]
    refine ⟨?_, i2⟩
    rw [bytes] at i1 ⊢
    rw [List.map_cons, List.flatten_cons, e1, i1]; rfl

theorem streamXor_app (key : Nat → Bytes) {n : Nat} (hn : 0 < n) (hk : ∀ i, (key i).length = n) {a : Nat} {A : Bytes} (hA : A.length = n * a) (B : Bytes) :
    streamXor key n (A ++ B) = streamXor key n A ++ streamXor (fun j => key (a + j)) n B := by
  obtain ⟨bs, t, g1, g2, g3⟩ := exists_blocks hn A
  have hl : n * bs.length + t.length = n * a := by rw [← hA, g3, List.length_append, g1.length_flatten, Nat.mul_comm]
  have ha : bs.length = a := by
    have e : (n * bs.length + t.length) / n = n * a / n := by rw [hl]
    rw [Nat.mul_add_div hn, Nat.mul_div_cancel_left _ hn, Nat.div_eq_of_lt g2, Nat.add_zero] at e
    exact e
  have ht : t = [] := by
    rw [ha] at hl
    exact List.length_eq_zero_iff.1 (by omega)
  subst ht
  rw [List.append_nil] at g3
  rw [g3, streamXor_blocks key hn hk g1, ha]
  have hf : (fun i => key (i + a)) = fun j => key (a + j) := by funext j; rw [Nat.add_comm]
  rw [hf]

theorem streamXor_prefix (key : Nat → Bytes) {n : Nat} (hn : 0 < n) (hk : ∀ i, (key i).length = n) (a : Nat) (m : Bytes) :
    streamXor key n (m.take (n * a)) <+: streamXor key n m := by
  by_cases h : n * a ≤ m.length
  · exact ⟨streamXor (fun j => key (a + j)) n (m.drop (n * a)), by
      rw [← streamXor_app key hn hk (by rw [List.length_take]; omega), List.take_append_drop]⟩
  · rw [List.take_of_length_le (by omega)]; exact List.prefix_refl _

/-- What holds while a message is being fed: `m` has been written and `o` handed out; the flag says whether a call was refused. -/
def Fed (key : Nat → Bytes) (n N : Nat) (x : Spec.CtrEnd.St) (m o : Bytes) : Prop :=
  o ++ x.ready = streamXor key n (m.take (n * x.used)) ∧
  ((x.used ≤ N ∧ n * x.used ≤ m.length ∧ x.pending = m.drop (n * x.used) ∧ x.pending.length < n) ∨
    (x.used = N ∧ n * N < m.length ∧ x.pending ≠ []))

theorem blocks_whole {n : Nat} (hn : 0 < n) (d : Bytes) : blocks n (whole n d) = d.length / n := by
  rw [blocks, whole, List.length_take, Nat.min_eq_left (Nat.mul_div_le _ _)]
  rw [show n * (d.length / n) + n - 1 = n * (d.length / n) + (n - 1) by omega, Nat.mul_add_div hn, Nat.div_eq_of_lt (by omega : n - 1 < n), Nat.add_zero]

theorem fed_write (key : Nat → Bytes) {n N : Nat} (hn : 0 < n) (hk : ∀ i, (key i).length = n) {x : Spec.CtrEnd.St} {m o : Bytes} (h : Fed key n N x m o)
    (d : Bytes) : Fed key n N (Spec.CtrEnd.call key n N x (.write d)).2 (m ++ d) o := by
  obtain ⟨pe, re, i⟩ := x
  obtain ⟨h1, h2⟩ := h
  simp only at h1 h2
  simp only [Spec.CtrEnd.call]
  split
  · rename_i hd
    subst hd
    rw [List.append_nil]; exact ⟨h1, h2⟩
  rename_i hd
  rcases h2 with ⟨a1, a2, a3, a4⟩ | ⟨a1, a2, a3⟩
  · have hdl := List.length_pos_iff.2 hd
    have hm : m ++ d = m.take (n * i) ++ (pe ++ d) := by rw [a3, ← List.append_assoc, List.take_append_drop]
    generalize hall : pe ++ d = all at hm ⊢
    have hml : (m ++ d).length = n * i + all.length := by rw [hm, List.length_append, List.length_take]; omega
    have hq := Nat.mul_div_le all.length n
    have hr : all.length < n * (all.length / n) + n := by
      have := Nat.div_add_mod all.length n; have := Nat.mod_lt all.length hn; omega
    by_cases hN : i + all.length / n ≤ N
    · have he : enough n N i (whole n all) = true := by rw [enough, blocks_whole hn]; simpa using hN
      have hu : usedAfter n N i (whole n all) = i + all.length / n := by rw [usedAfter, blocks_whole hn]; omega
      rw [he, hu]
      refine ⟨?_, .inl ⟨hN, ?_, ?_, ?_⟩⟩
      · simp only
        have hs : served key n N i (whole n all) = streamXor (fun j => key (i + j)) n (all.take (n * (all.length / n))) := by
          rw [served, whole, List.take_take, Nat.min_eq_right (Nat.mul_le_mul_left _ (by omega))]
        rw [hs, ← List.append_assoc, h1, hm, Nat.mul_add,
          show List.take (n * i + n * (all.length / n)) (m.take (n * i) ++ all) = m.take (n * i) ++ all.take (n * (all.length / n)) by
            have hl : (m.take (n * i)).length = n * i := by rw [List.length_take]; omega
            rw [List.take_append, hl, List.take_of_length_le (by omega), Nat.add_sub_cancel_left],
          streamXor_app key hn hk (a := i) (by rw [List.length_take]; omega)]
      · simp only; rw [hml, Nat.mul_add]; omega
      · simp only [if_true]
        rw [hm, Nat.mul_add]
        have hl : (m.take (n * i)).length = n * i := by rw [List.length_take]; omega
        rw [List.drop_append, hl, List.drop_eq_nil_of_le (as := m.take (n * i)) (by omega), Nat.add_sub_cancel_left, List.nil_append]
      · simp only [if_true, List.length_drop]; omega
    · have he : enough n N i (whole n all) = false := by rw [enough, blocks_whole hn]; simpa using hN
      have hu : usedAfter n N i (whole n all) = N := by rw [usedAfter, blocks_whole hn]; omega
      have hle : n * (N - i) + n ≤ n * (all.length / n) := by
        rw [← Nat.mul_succ]; exact Nat.mul_le_mul_left _ (by omega)
      have hNi : n * N = n * i + n * (N - i) := by rw [← Nat.mul_add]; congr 1; omega
      rw [he, hu]
      refine ⟨?_, .inr ⟨rfl, ?_, ?_⟩⟩
      · simp only
        have hs : served key n N i (whole n all) = streamXor (fun j => key (i + j)) n (all.take (n * (N - i))) := by
          rw [served, whole, List.take_take, Nat.min_eq_left (by omega)]
        rw [hs, ← List.append_assoc, h1, hm, hNi,
          show List.take (n * i + n * (N - i)) (m.take (n * i) ++ all) = m.take (n * i) ++ all.take (n * (N - i)) by
            have hl : (m.take (n * i)).length = n * i := by rw [List.length_take]; omega
            rw [List.take_append, hl, List.take_of_length_le (by omega), Nat.add_sub_cancel_left],
          streamXor_app key hn hk (a := i) (by rw [List.length_take]; omega)]
      · omega
      · simp only [Bool.false_eq_true, if_false]
        rw [← hall]; simp [hd]
  · subst a1
    refine ⟨?_, .inr ⟨usedAfter_end _, ?_, ?_⟩⟩
    · simp only [served_end, usedAfter_end, List.append_nil]
      rw [h1, List.take_append_of_le_length (by omega)]
    · rw [List.length_append]; omega
    · have hall : 0 < n ∧ pe ++ d ≠ [] := ⟨hn, by simp [a3]⟩
      simp only
      split
      · rename_i he
        -- no whole block was pending: nothing has been asked for
        rw [enough, blocks_whole hn, decide_eq_true_eq] at he
        have h0 : (pe ++ d).length / n = 0 := by generalize (pe ++ d).length / n = q at he; omega
        rw [h0, Nat.mul_zero, List.drop_zero]
        exact hall.2
      · exact hall.2

theorem fed_write_ok (key : Nat → Bytes) {n N : Nat} (hn : 0 < n) {x : Spec.CtrEnd.St} {m o : Bytes} (h : Fed key n N x m o) (d : Bytes)
    (hl : (m ++ d).length ≤ n * N) : (Spec.CtrEnd.call key n N x (.write d)).1.error = none := by
  obtain ⟨pe, re, i⟩ := x
  obtain ⟨-, h2⟩ := h
  simp only at h2
  simp only [Spec.CtrEnd.call]
  split
  · rfl
  rw [List.length_append] at hl
  rcases h2 with ⟨a1, a2, a3, a4⟩ | ⟨a1, a2, a3⟩
  · have he : enough n N i (whole n (pe ++ d)) = true := by
      rw [enough, blocks_whole hn, decide_eq_true_eq]
      have e : n * i + (pe ++ d).length ≤ n * N := by rw [a3, List.length_append, List.length_drop]; omega
      have := Nat.mul_div_le (pe ++ d).length n
      exact Nat.le_of_mul_le_mul_left (by rw [Nat.mul_add]; omega) hn
    simp only [he]; rfl
  · omega

theorem fed_draw {key : Nat → Bytes} {n N : Nat} {x : Spec.CtrEnd.St} {m o : Bytes} (h : Fed key n N x m o) :
    Fed key n N { x with ready := [] } m (o ++ x.ready) := by
  obtain ⟨h1, h2⟩ := h
  exact ⟨by rw [List.append_nil, h1], h2⟩

theorem feed_fed (key : Nat → Bytes) {n N : Nat} (hn : 0 < n) (hk : ∀ i, (key i).length = n) (hist : List Op)
    (hh : ∀ op ∈ hist, op = .draw ∨ ∃ d, op = .write d) (x : Spec.CtrEnd.St) (m o : Bytes) (h : Fed key n N x m o) :
    Fed key n N (after key n N x hist) (m ++ given hist) (o ++ bytes (Spec.CtrEnd.run key n N x hist)) ∧
    ((m ++ given hist).length ≤ n * N → ∀ r ∈ Spec.CtrEnd.run key n N x hist, r.error = none) := by
  induction hist generalizing x m o with
  | nil => exact ⟨by simpa [after, given, bytes, Spec.CtrEnd.run] using h, fun _ r hr => by simp [Spec.CtrEnd.run] at hr⟩
  | cons op hist ih =>
    have hh' : ∀ op ∈ hist, op = .draw ∨ ∃ d, op = .write d := fun q hq => hh q (List.mem_cons_of_mem _ hq)
    rcases hh op List.mem_cons_self with rfl | ⟨d, rfl⟩
    · obtain ⟨i1, i2⟩ := ih hh' _ m (o ++ x.ready) (fed_draw h)
      rw [Spec.CtrEnd.run, after, given]
      · refine ⟨?_, fun hl r hr => ?_⟩
        · have e : o ++ bytes ((Spec.CtrEnd.call key n N x .draw).1 :: Spec.CtrEnd.run key n N (Spec.CtrEnd.call key n N x .draw).2 hist) =
              o ++ x.ready ++ bytes (Spec.CtrEnd.run key n N { x with ready := [] } hist) := by
            rw [List.append_assoc]; rfl
          rw [e]; exact i1
        · rcases List.mem_cons.1 hr with rfl | hr
          · rfl
          · exact i2 hl r hr
      · simp
    · obtain ⟨i1, i2⟩ := ih hh' _ (m ++ d) o (fed_write key hn hk h d)
      rw [Spec.CtrEnd.run, after, given, ← List.append_assoc]
      refine ⟨?_, fun hl r hr => ?_⟩
      · have e0 : (Spec.CtrEnd.call key n N x (.write d)).1.bytes = [] := by
          simp only [Spec.CtrEnd.call]; split <;> rfl
        have e : bytes ((Spec.CtrEnd.call key n N x (.write d)).1 :: Spec.CtrEnd.run key n N (Spec.CtrEnd.call key n N x (.write d)).2 hist) =
            bytes (Spec.CtrEnd.run key n N (Spec.CtrEnd.call key n N x (.write d)).2 hist) := by
          simp only [bytes, List.map_cons, List.flatten_cons, e0, List.nil_append]
        rw [e]; exact i1
      · rcases List.mem_cons.1 hr with rfl | hr
        · exact fed_write_ok key hn h d (by rw [List.length_append] at hl; omega)
        · exact i2 hl r hr

/-- One message: writes and draws, then `finish`. -/
theorem message (key : Nat → Bytes) {n N : Nat} (hn : 0 < n) (hk : ∀ i, (key i).length = n) (hist : List Op)
    (hh : ∀ op ∈ hist, op = .draw ∨ ∃ d, op = .write d) :
    ∃ rs f, Spec.CtrEnd.run key n N St.new (hist ++ [.finish]) = rs ++ [f] ∧
      (bytes (rs ++ [f]) <+: streamXor key n (given hist)) ∧
      ((given hist).length ≤ n * N → (∀ r ∈ rs, r.error = none) ∧ f.error = none ∧ bytes (rs ++ [f]) = streamXor key n (given hist)) ∧
      (n * N < (given hist).length → f = ⟨some (.err .innerErr), []⟩) := by
  obtain ⟨h1, h2⟩ := feed_fed key (N := N) hn hk hist hh St.new [] [] ⟨by simp [St.new, streamXor_nil], .inl ⟨Nat.zero_le _, by simp [St.new], rfl, hn⟩⟩
  rw [List.nil_append, List.nil_append] at h1
  rw [List.nil_append] at h2
  rw [run_append]
  generalize hx : after key n N St.new hist = x at h1 ⊢
  generalize Spec.CtrEnd.run key n N St.new hist = rs at h1 h2 ⊢
  generalize given hist = m at h1 h2 ⊢
  refine ⟨rs, (Spec.CtrEnd.call key n N x .finish).1, rfl, ?_⟩
  obtain ⟨pe, re, i⟩ := x
  have hb : ∀ f, bytes (rs ++ [f]) = bytes rs ++ f.bytes := fun f => by simp [bytes]
  obtain ⟨g1, g2⟩ := h1
  simp only at g1 g2
  rw [hb]
  simp only [Spec.CtrEnd.call]
  rcases g2 with ⟨a1, a2, a3, a4⟩ | ⟨a1, a2, a3⟩
  · by_cases he : enough n N i pe = true
    · rw [if_pos he]
      have hpe : pe.length ≤ n * (N - i) := by
        by_cases hp : pe = []
        · subst hp; simp
        · rw [enough, blocks_succ hn hp, decide_eq_true_eq] at he
          have : n * 1 ≤ n * (N - i) := Nat.mul_le_mul_left _ (by omega)
          omega
      have hm : bytes rs ++ (re ++ served key n N i pe) = streamXor key n m := by
        rw [← List.append_assoc, g1, served, List.take_of_length_le hpe, ← streamXor_app key hn hk (by rw [List.length_take]; omega), a3,
          List.take_append_drop]
      refine ⟨by rw [hm]; exact List.prefix_refl _, fun hl => ⟨h2 hl, rfl, hm⟩, fun hl => ?_⟩
      exfalso
      have e : pe.length = m.length - n * i := by rw [a3, List.length_drop]
      have : n * N = n * i + n * (N - i) := by rw [← Nat.mul_add]; congr 1; omega
      omega
    · rw [if_neg he]
      have hp : pe ≠ [] := by
        rintro rfl
        rw [enough, blocks_nil hn, decide_eq_true_eq] at he
        omega
      have hne : ¬ m.length ≤ n * N := by
        rw [enough, blocks_succ hn hp, List.drop_eq_nil_of_le (by omega), blocks_nil hn, decide_eq_true_eq] at he
        have hi : i = N := by omega
        subst hi
        have := List.length_pos_iff.2 hp
        rw [a3, List.length_drop] at this
        omega
      refine ⟨?_, fun hl => absurd hl hne, fun _ => rfl⟩
      rw [List.append_nil]
      exact ((List.prefix_append _ _).trans (by rw [g1]; exact List.prefix_refl _)).trans (streamXor_prefix key hn hk i m)
  · subst a1
    rw [if_neg (by rw [enough_end hn a3]; simp)]
    refine ⟨?_, fun hl => by omega, fun _ => rfl⟩
    rw [List.append_nil]
    exact ((List.prefix_append _ _).trans (by rw [g1]; exact List.prefix_refl _)).trans (streamXor_prefix key hn hk i m)

/-! ## The model of C14 -/

theorem loop_while (c : BlockCipher) (ops : CounterOps κ) (fuel t : Nat) (k : κ) (dst d : Bytes) :
    whileLen contNe c.bs (CTR.step c ops) fuel k dst d =
      match Flaky.loop contNe c.bs (fun _ => step c ops) fuel t k dst d with
      | ⟨_, k', dst', rest, none⟩ => .ok (k', dst', rest)
      | ⟨_, _, _, _, some e⟩ => .error e := by
  induction fuel generalizing t k dst d with
  | zero => rfl
  | succ fuel ih =>
    rw [whileLen, Flaky.loop]
    split
    · rw [CTR.step, step]
      generalize ops.next k = r
      obtain ⟨a, k'⟩ := r
      cases a with
      | none => rfl
      | some v =>
        simp only
        by_cases hv : v.length < c.bs
        · simp only [if_pos hv]
        · simp only [if_neg hv]
          cases he : c.encrypt (v.take c.bs) with
          | error e => rfl
          | ok oj => exact ih (t + 1) k' _ _
    · rfl

theorem inner_model (c : BlockCipher) (ops : CounterOps κ) (k : κ) (dst d : Bytes) :
    CTR.encryptInner c ops k dst d =
      match inner c ops k dst d with
      | ⟨_, k', dst', _, none⟩ => .ok (k', dst')
      | ⟨_, _, _, _, some e⟩ => .error e := by
  rw [CTR.encryptInner, loop_while c ops _ 0, inner]
  generalize Flaky.loop _ _ _ _ _ _ _ _ = r
  obtain ⟨t, k', dst', rest, e⟩ := r
  cases e <;> rfl

end Verif.Model.CtrEnd
