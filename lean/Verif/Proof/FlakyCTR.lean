import Verif.Proof.Flaky

/-! Helper lemmas about CTR and CBC encryption over a cipher that may fail -/

namespace Verif.Model.Flaky
open Verif.Spec
open Verif.Spec.Flaky (Op Rules first twice writeCut writeTwice finishChain served keyed ctrRun)

variable {c : BlockCipher} {E D : Bytes → Bytes} {κ : Type} {ops : CounterOps κ} {fail : Sched}

theorem served_succ (b : Nat → Bool) {t0 t : Nat} (h : t0 ≤ t) : served b t0 (t + 1) = served b t0 t ++ if b t then [] else [t - t0] := by
  have h1 : t + 1 - t0 = (t - t0) + 1 := by omega
  have h2 : t0 + (t - t0) = t := by omega
  rw [served, served, h1, List.range_succ, List.filter_append]
  cases hb : b t <;> simp [h2, hb]

theorem served_ok (b : Nat → Bool) {t0 t : Nat} (h : t0 ≤ t) (k : Nat) (hk : ∀ i, i < k → b (t + i) = false) :
    served b t0 (t + k) = served b t0 t ++ (List.range k).map (fun i => t - t0 + i) := by
  induction k with
  | zero => simp
  | succ k ih =>
    rw [← Nat.add_assoc, served_succ b (by omega), ih (fun i hi => hk i (by omega)), hk k (by omega), List.range_succ]
    simp only [Bool.false_eq_true, if_false, List.map_append, List.map_cons, List.map_nil, List.append_assoc]
    rw [show t + k - t0 = t - t0 + k by omega]

/-- The encryption of counter block `i`. -/
def key (c : BlockCipher) (E : Bytes → Bytes) (ops : CounterOps κ) (k : κ) (i : Nat) : Bytes := E (CTR.input c ops k i)

theorem keyed_blocks (h : Lawful c E D) {k : κ} (hk : CTR.Good c ops k) (j : Nat) {bs : List Bytes} (hb : IsBlocks c.bs bs) (tail : Bytes) (ht : tail.length ≤ c.bs)
    (L : List Bytes) (hL : L = bs ++ [tail] ∨ (L = bs ∧ tail = [])) :
    (runPure (CTR.stepF c E ops) (ops.after k j) L).2 =
      xorBytes (bs.flatten ++ tail) ((List.range L.length).map (fun i => key c E ops k (j + i))).flatten := by
  induction bs generalizing j L with
  | nil =>
    rcases hL with rfl | ⟨rfl, rfl⟩
    · simp only [List.nil_append, runPure, CTR.stepF, List.append_nil, List.length_singleton, List.range_one, List.map_cons, List.map_nil, List.flatten_cons,
        List.flatten_nil, key, CTR.input_after, Nat.add_zero, Nat.zero_add]
    · simp [runPure]
  | cons b bs ih =>
    have hkl : ∀ i, (key c E ops k i).length = c.bs := fun i => h.lenE _ (CTR.length_input hk i)
    have hrec : ∀ L', (L' = bs ++ [tail] ∨ (L' = bs ∧ tail = [])) → (runPure (CTR.stepF c E ops) (ops.after k j) (b :: L')).2 =
        xorBytes ((b :: bs).flatten ++ tail) ((List.range (b :: L').length).map (fun i => key c E ops k (j + i))).flatten := by
      intro L' hL'
      have := ih (j + 1) hb.tail L' hL'
      rw [runPure]
      simp only
      have e1 : (CTR.stepF c E ops (ops.after k j) b).1 = ops.after k (j + 1) := rfl
      rw [e1, this, List.length_cons, List.range_succ_eq_map, List.map_cons, List.flatten_cons, List.flatten_cons, List.append_assoc,
        xorBytes_append _ _ _ _ (by rw [hb.head, hkl])]
      rw [List.map_map, show ((fun i => key c E ops k (j + i)) ∘ Nat.succ) = fun i => key c E ops k (j + 1 + i) by
        funext i
        simp only [Function.comp, Nat.succ_eq_add_one]
        rw [show j + 1 + i = j + (i + 1) by omega]]
      rfl
    rcases hL with rfl | ⟨rfl, h2⟩
    · exact hrec _ (.inl rfl)
    · exact hrec _ (.inr ⟨rfl, h2⟩)

/-- The loop with the condition `!data.is_empty()` when a short block may come last, which is processed like the others. -/
theorem loop_short {σ : Type} {spoil : (Bytes → Bytes) → σ → σ} {n : Nat} {step : σ → Bytes → Res (σ × Bytes)}
    {f : σ → Bytes → σ × Bytes} {Inv : σ → Prop} {blocks : List Bytes} {tail : Bytes}
    (hstep : ∀ s b, Inv s → b.length ≤ n → step s b = .ok (f s b) ∧ Inv (f s b).1)
    (hb : IsBlocks n blocks) (hn : 0 < n) (ht : tail.length < n) (ht0 : 0 < tail.length)
    {s : σ} (hs : Inv s) (t : Nat) (dst data : Bytes) (hd : data = blocks.flatten ++ tail) (fuel : Nat) (hf : data.length < fuel) :
    loop contNe n (body fail step spoil) fuel t s dst data =
      match first (bad fail) t (blocks.length + 1) with
      | none => ⟨t + (blocks.length + 1), (runPure f s (blocks ++ [tail])).1, dst ++ (runPure f s (blocks ++ [tail])).2, [], none⟩
      | some k => ⟨t + k + 1, spoiled fail spoil (t + k) (runPure f s (blocks.take k)).1, dst ++ (runPure f s (blocks.take k)).2,
          (blocks.drop k).flatten ++ tail, some (.err .innerErr)⟩ := by
  subst hd
  induction blocks generalizing s dst t fuel with
  | nil =>
    cases fuel with
    | zero => omega
    | succ fuel =>
      obtain ⟨h1, h2⟩ := hstep s tail hs (by omega)
      simp only [List.flatten_nil, List.nil_append] at hf ⊢
      rw [loop, if_pos (by simp [contNe, ht0]), List.take_of_length_le (by omega), List.drop_eq_nil_of_le (by omega), body]
      cases hfl : fail t with
      | some g => simp [first, bad, hfl, runPure, spoiled]
      | none =>
        cases fuel with
        | zero => omega
        | succ fuel => simp [first, bad, hfl, runPure, h1, loop, contNe]
  | cons b bs ih =>
    cases fuel with
    | zero => omega
    | succ fuel =>
      have hlen : ((b :: bs).flatten ++ tail).length = n * (bs.length + 1) + tail.length := by
        rw [List.length_append, hb.length_flatten]; rfl
      obtain ⟨h1, h2⟩ := hstep s b hs (Nat.le_of_eq hb.head)
      have htake : ((b :: bs).flatten ++ tail).take n = b := by
        rw [List.flatten_cons, List.append_assoc, ← hb.head, List.take_left]
      have hdrop : ((b :: bs).flatten ++ tail).drop n = bs.flatten ++ tail := by
        rw [List.flatten_cons, List.append_assoc, ← hb.head, List.drop_left]
      rw [loop, if_pos (by rw [hlen]; exact contNe_blocks hn _ _ (Nat.succ_pos _)), htake, hdrop, body]
      cases hfl : fail t with
      | some g => simp [first, bad, hfl, runPure, spoiled]
      | none =>
        simp only [h1]
        rw [ih hb.tail h2 _ _ _ (by
          rw [List.length_append, hb.tail.length_flatten]
          rw [hlen, Nat.mul_add] at hf
          omega)]
        have hf0 : first (bad fail) t ((b :: bs).length + 1) = (first (bad fail) (t + 1) (bs.length + 1)).map (· + 1) := by
          rw [first]; simp [bad, hfl]
        rw [hf0]
        cases first (bad fail) (t + 1) (bs.length + 1) with
        | none =>
          simp only [Option.map_none, List.length_cons, runPure, List.append_assoc, List.cons_append]
          rw [show t + 1 + (bs.length + 1) = t + (bs.length + 1 + 1) by omega]
        | some k =>
          simp only [Option.map_some, List.take_succ_cons, List.drop_succ_cons, runPure, List.append_assoc]
          rw [show t + 1 + k = t + (k + 1) by omega]

/-- What the specification remembers and the CTR stream. `k0` is the counter after a reset. -/
def RC (c : BlockCipher) (E : Bytes → Bytes) (ops : CounterOps κ) (fail : Sched) (k0 : κ) (x : Spec.Flaky.St) (t0 : Nat) (s : St κ) : Prop :=
  ∃ blocks o, IsBlocks c.bs blocks ∧ blocks.length = x.e ∧ x.m = blocks.flatten ++ s.data ∧ s.calls = x.t ∧ t0 ≤ x.t ∧
    s.st = ops.after k0 (x.t - t0) ∧ (served (bad fail) t0 x.t).length = x.e ∧
    o ++ s.pond = keyed (key c E ops k0) (bad fail) t0 x.t blocks.flatten ∧ o.length = x.h

theorem length_keys (h : Lawful c E D) {k : κ} (hk : CTR.Good c ops k) (l : List Nat) : (l.map (key c E ops k)).flatten.length = c.bs * l.length := by
  have : IsBlocks c.bs (l.map (key c E ops k)) := by
    intro b hb
    obtain ⟨i, -, rfl⟩ := List.mem_map.1 hb
    exact h.lenE _ (CTR.length_input hk i)
  rw [this.length_flatten, List.length_map]

/-- Serving the blocks `bs` (and then perhaps a short one) from a state in the relation. -/
theorem RC.serve (h : Lawful c E D) {k0 : κ} (hk : CTR.Good c ops k0) {x : Spec.Flaky.St} {t0 : Nat} {s : St κ} (hR : RC c E ops fail k0 x t0 s)
    {bs : List Bytes} (hb : IsBlocks c.bs bs) (tail : Bytes) (ht : tail.length ≤ c.bs) (L : List Bytes) (hL : L = bs ++ [tail] ∨ (L = bs ∧ tail = []))
    (hok : ∀ i, i < L.length → bad fail (x.t + i) = false) :
    ∃ blocks o, IsBlocks c.bs blocks ∧ blocks.length = x.e ∧ x.m = blocks.flatten ++ s.data ∧ o.length = x.h ∧
      (runPure (CTR.stepF c E ops) s.st L).1 = ops.after k0 (x.t + L.length - t0) ∧
      (served (bad fail) t0 (x.t + L.length)).length = x.e + L.length ∧
      o ++ (s.pond ++ (runPure (CTR.stepF c E ops) s.st L).2) =
        keyed (key c E ops k0) (bad fail) t0 (x.t + L.length) (blocks.flatten ++ (bs.flatten ++ tail)) := by
  obtain ⟨blocks, o, h1, h2, h3, h4, h5, h6, h7, h8, h9⟩ := hR
  have hsv := served_ok (bad fail) h5 L.length hok
  refine ⟨blocks, o, h1, h2, h3, h9, ?_, ?_, ?_⟩
  · rw [CTR.runPure_stepF_fst, h6, CounterOps.after_after]
    congr 1
    omega
  · rw [hsv, List.length_append, h7, List.length_map, List.length_range]
  · rw [← List.append_assoc, h8, keyed, keyed, hsv, List.map_append, List.flatten_append,
      xorBytes_append _ _ _ _ (by rw [h1.length_flatten, length_keys h hk, h7, h2]), h6, keyed_blocks h hk _ hb tail ht L hL, List.map_map]
    rfl

theorem served_bad (b : Nat → Bool) {t0 t : Nat} (h : t0 ≤ t) (hb : b t = true) : served b t0 (t + 1) = served b t0 t := by
  rw [served_succ b h, hb]; simp

/-- Failing after `k` blocks. -/
theorem RC.fails (h : Lawful c E D) {k0 : κ} (hk : CTR.Good c ops k0) {x : Spec.Flaky.St} {t0 : Nat} {s : St κ} (hR : RC c E ops fail k0 x t0 s)
    (q : Bytes) {bs : List Bytes} {tail : Bytes} (hb : IsBlocks c.bs bs) (hq : s.data ++ q = bs.flatten ++ tail) {w k : Nat}
    (hf : first (bad fail) x.t w = some k) (hkl : k ≤ bs.length) :
    RC c E ops fail k0 ⟨twice c.bs (x.m ++ q) x.e k, x.e + k, x.t + k + 1, x.h⟩ t0
      ⟨s.data ++ q, s.pond ++ (runPure (CTR.stepF c E ops) s.st (bs.take k)).2,
        spoiled fail (fun _ k => (ops.next k).2) (x.t + k) (runPure (CTR.stepF c E ops) s.st (bs.take k)).1, x.t + k + 1⟩ := by
  have hR' := hR
  obtain ⟨-, g2, g3⟩ := first_some.1 hf
  have hlk : (bs.take k).length = k := by rw [List.length_take]; omega
  obtain ⟨blocks, o, h1, h2, h3, h9, e1, e2, e3⟩ := hR.serve h hk (bs := bs.take k) (fun b hb' => hb b (List.mem_of_mem_take hb')) [] (by simp) (bs.take k)
    (.inr ⟨rfl, rfl⟩) (by rw [hlk]; exact g3)
  rw [hlk] at e1 e2 e3
  have ht0 : t0 ≤ x.t := by obtain ⟨_, _, _, _, _, _, h5, _⟩ := hR'; exact h5
  obtain ⟨g, hg⟩ : ∃ g, fail (x.t + k) = some g := Option.isSome_iff_exists.1 g2
  have hbk : IsBlocks c.bs (blocks ++ bs.take k) := h1.append fun b hb' => hb b (List.mem_of_mem_take hb')
  have hlbk : (blocks ++ bs.take k).length = x.e + k := by rw [List.length_append, hlk, h2]
  refine ⟨blocks ++ bs.take k, o, hbk, hlbk, ?_, rfl, by simp only; omega, ?_, ?_, ?_, h9⟩
  · simp only [twice]
    have hm : x.m ++ q = blocks.flatten ++ (bs.flatten ++ tail) := by rw [h3, List.append_assoc, hq]
    rw [hm, (take_blocks h1 h2 _).2, hq]
    congr 1
    rw [flatten_split bs k, show blocks.flatten ++ ((bs.take k).flatten ++ (bs.drop k).flatten ++ tail) =
      (blocks ++ bs.take k).flatten ++ ((bs.drop k).flatten ++ tail) by simp only [List.flatten_append, List.append_assoc],
      (take_blocks hbk hlbk _).1]
  · simp only [spoiled, hg]
    rw [e1, show x.t + k + 1 - t0 = x.t + k - t0 + 1 by omega]
    rfl
  · simp only
    rw [served_bad _ (by omega) g2, e2]
  · simp only
    rw [e3, keyed, keyed, served_bad _ (by omega) g2, List.append_nil, List.flatten_append]

theorem ctrWrite_sim (h : Lawful c E D) {k0 : κ} (hk : CTR.Good c ops k0) {x : Spec.Flaky.St} {t0 : Nat} {s : St κ} (d : Bytes)
    (hR : RC c E ops fail k0 x t0 s) :
    (wholeWrite c.bs (ctrBody c fail ops) s d).1 = (writeTwice (bad fail) c.bs (fun l => l / c.bs) x d).1 ∧
      RC c E ops fail k0 (writeTwice (bad fail) c.bs (fun l => l / c.bs) x d).2 t0 (wholeWrite c.bs (ctrBody c fail ops) s d).2 := by
  unfold wholeWrite writeTwice ctrBody
  by_cases hd : d = []
  · subst hd; simpa using hR
  rw [if_neg (by simpa using hd), if_neg hd]
  obtain ⟨bs, t, g1, g2, g3⟩ := exists_blocks h.pos (s.data ++ d)
  have hgood : CTR.Good c ops s.st := by obtain ⟨_, _, _, _, _, _, _, h6, _⟩ := hR; rw [h6]; exact hk.after _
  have hc : s.calls = x.t := by obtain ⟨_, _, _, _, _, h4, _⟩ := hR; exact h4
  have hlm : x.m.length = c.bs * x.e + s.data.length := by
    obtain ⟨_, _, h1, h2, h3, _⟩ := hR; rw [h3, List.length_append, h1.length_flatten, h2]
  have hw : (x.m ++ d).length / c.bs = x.e + bs.length := by
    have : (x.m ++ d).length = c.bs * (x.e + bs.length) + t.length := by
      have := congrArg List.length g3
      rw [List.length_append, List.length_append, g1.length_flatten] at this
      rw [List.length_append, hlm, Nat.mul_add]; omega
    rw [this, Nat.mul_add_div h.pos, Nat.div_eq_of_lt g2, Nat.add_zero]
  simp only [hw, Nat.add_sub_cancel_left, (bound_eq g1 g2 g3).1, (bound_eq g1 g2 g3).2]
  rw [loop_eq (tail := []) (cont := contNe) (Inv := CTR.Good c ops) (fun s b a b' => CTR.step_ok h s b a (Nat.le_of_eq b')) g1 h.pos
    (fun k hk => contNe_blocks h.pos k _ hk) (by simp [contNe]) hgood _ _ _ (List.append_nil _).symm _ (Nat.lt_succ_self _), hc]
  cases hft : first (bad fail) x.t bs.length with
  | none =>
    simp only
    obtain ⟨blocks, o, h1, h2, h3, h9, e1, e2, e3⟩ := hR.serve h hk g1 [] (by simp) bs (.inr ⟨rfl, rfl⟩) (first_none.1 hft)
    have ht0 : t0 ≤ x.t := by obtain ⟨_, _, _, _, _, _, h5, _⟩ := hR; exact h5
    refine ⟨trivial, blocks ++ bs, o, h1.append g1, by simp [h2], ?_, rfl, by simp only; omega, e1, e2, ?_, h9⟩
    · rw [h3, List.append_assoc, g3]; simp
    · rw [e3, List.append_nil, List.flatten_append]
  | some k =>
    exact ⟨rfl, hR.fails h hk d g1 g3 hft (Nat.le_of_lt (first_lt hft))⟩

theorem ctr_run_eq (h : Lawful c E D) {k0 : κ} (hk : CTR.Good c ops k0) (hreset : ∀ j, ops.reset (ops.after k0 j) = k0) (hist : List Op)
    {x : Spec.Flaky.St} {t0 : Nat} {s : St κ} (hR : RC c E ops fail k0 x t0 s) :
    (ctr c fail ops).run s hist = ctrRun (key c E ops k0) (bad fail) c.bs x t0 hist := by
  induction hist generalizing x t0 s with
  | nil => rfl
  | cons op hist ih =>
    cases op with
    | write d =>
      obtain ⟨e1, e2⟩ := ctrWrite_sim h hk d hR
      rw [Obj.run, ctrRun]
      simp only [ctr]
      rw [e1]
      exact congrArg _ (ih e2)
    | draw =>
      rw [Obj.run, ctrRun]
      have hn : (ctr c fail ops).write s [] = (.ok (), s) := by simp [ctr, wholeWrite]
      rw [hn]
      obtain ⟨blocks, o, h1, h2, h3, h4, h5, h6, h7, h8, h9⟩ := hR
      have e : keyed (key c E ops k0) (bad fail) t0 x.t (x.m.take (c.bs * x.e)) = o ++ s.pond := by
        rw [h8, h3, (take_blocks h1 h2 _).1]
      rw [e, ← h9, List.drop_left]
      simp only [Except.map]
      refine congrArg _ (ih ⟨blocks, o ++ s.pond, h1, h2, h3, h4, h5, h6, h7, by rw [List.append_nil, h8], ?_⟩)
      rw [h8, keyed, length_xorBytes, h1.length_flatten, length_keys h hk, h7, h2, Nat.min_self]
    | finish =>
      rw [Obj.run, ctrRun]
      simp only [ctr, ctrFinish, ctrBody]
      obtain ⟨bs, t, g1, g2, g3⟩ := exists_blocks h.pos s.data
      have hgood : CTR.Good c ops s.st := by obtain ⟨_, _, _, _, _, _, _, h6, _⟩ := hR; rw [h6]; exact hk.after _
      have hc : s.calls = x.t := by obtain ⟨_, _, _, _, _, h4, _⟩ := hR; exact h4
      have ht0 : t0 ≤ x.t := by obtain ⟨_, _, _, _, _, _, h5, _⟩ := hR; exact h5
      have hlm : x.m.length = c.bs * (x.e + bs.length) + t.length := by
        obtain ⟨_, _, h1, h2, h3, _⟩ := hR
        rw [h3, g3, List.length_append, List.length_append, g1.length_flatten, h1.length_flatten, h2, Nat.mul_add]; omega
      by_cases ht : t = []
      · subst ht
        have hw : (x.m.length + c.bs - 1) / c.bs = x.e + bs.length := by
          rw [hlm, List.length_nil, Nat.add_zero, Nat.add_sub_assoc h.pos, Nat.mul_add_div h.pos, Nat.div_eq_of_lt (by have := h.pos; omega), Nat.add_zero]
        rw [hw, Nat.add_sub_cancel_left]
        rw [loop_eq (tail := []) (cont := contNe) (Inv := CTR.Good c ops) (fun s b a b' => CTR.step_ok h s b a (Nat.le_of_eq b')) g1 h.pos
          (fun k hk => contNe_blocks h.pos k _ hk) (by simp [contNe]) hgood _ _ _ g3 _ (Nat.lt_succ_self _), hc]
        cases hft : first (bad fail) x.t bs.length with
        | none =>
          simp only
          obtain ⟨blocks, o, h1, h2, h3, h9, e1, e2, e3⟩ := hR.serve h hk g1 [] (by simp) bs (.inr ⟨rfl, rfl⟩) (first_none.1 hft)
          have hm : x.m = blocks.flatten ++ (bs.flatten ++ []) := by rw [h3, g3]
          rw [hm, ← e3, ← h9, List.drop_left]
          refine congrArg _ (ih ⟨blocks ++ bs, o ++ (s.pond ++ (runPure (CTR.stepF c E ops) s.st bs).2), h1.append g1, by simp [h2], ?_, rfl,
            by simp only; omega, e1, e2, ?_, ?_⟩)
          · rw [← hm, hlm]; simp [hm]
          · rw [List.append_nil, e3, List.append_nil, List.flatten_append]
          · rw [e3, keyed, length_xorBytes, length_keys h hk, e2, ← hm, hlm]; simp
        | some k =>
          refine congrArg _ (ih ?_)
          have := hR.fails h hk [] (bs := bs) (tail := []) g1 (by simp [g3]) hft (Nat.le_of_lt (first_lt hft))
          simpa using this
      · have ht1 : 0 < t.length := List.length_pos_iff.2 ht
        have hw : (x.m.length + c.bs - 1) / c.bs = x.e + (bs.length + 1) := by
          rw [hlm, show c.bs * (x.e + bs.length) + t.length + c.bs - 1 = c.bs * (x.e + (bs.length + 1)) + (t.length - 1) by
            rw [← Nat.add_assoc, Nat.mul_add c.bs (x.e + bs.length), Nat.mul_one]; omega, Nat.mul_add_div h.pos, Nat.div_eq_of_lt (by omega), Nat.add_zero]
        rw [hw, Nat.add_sub_cancel_left]
        rw [loop_short (Inv := CTR.Good c ops) (CTR.step_ok h) g1 h.pos g2 ht1 hgood _ _ _ g3 _ (Nat.lt_succ_self _), hc]
        cases hft : first (bad fail) x.t (bs.length + 1) with
        | none =>
          simp only
          obtain ⟨blocks, o, h1, h2, h3, h9, e1, e2, e3⟩ := hR.serve h hk g1 t (Nat.le_of_lt g2) (bs ++ [t]) (.inl rfl) (by
            rw [List.length_append, List.length_singleton]; exact first_none.1 hft)
          rw [List.length_append, List.length_singleton] at e1 e2 e3
          have hm : x.m = blocks.flatten ++ (bs.flatten ++ t) := by rw [h3, g3]
          rw [show keyed (key c E ops k0) (bad fail) t0 (x.t + (bs.length + 1)) x.m =
            o ++ (s.pond ++ (runPure (CTR.stepF c E ops) s.st (bs ++ [t])).2) by rw [e3, hm], ← h9, List.drop_left]
          have hlz : t.length + (c.bs * (x.e + (bs.length + 1)) - x.m.length) = c.bs := by
            rw [hlm, ← Nat.add_assoc, Nat.mul_add c.bs (x.e + bs.length), Nat.mul_one]; omega
          generalize c.bs * (x.e + (bs.length + 1)) - x.m.length = z at hlz
          have hbz : IsBlocks c.bs (blocks ++ (bs ++ [t ++ List.replicate z 0#8])) :=
            h1.append (g1.append (IsBlocks.cons (by rw [List.length_append, List.length_replicate, hlz]) .nil))
          have hle : (blocks ++ (bs ++ [t ++ List.replicate z 0#8])).length = x.e + (bs.length + 1) := by simp [h2]
          refine congrArg _ (ih ⟨blocks ++ (bs ++ [t ++ List.replicate z 0#8]), _, hbz, hle, ?_, rfl, by simp only; omega, e1, e2, List.append_nil _, ?_⟩)
          · rw [hm]; simp
          · simp only
            rw [keyed, length_xorBytes, length_keys h hk, e2, hbz.length_flatten, hle, Nat.min_self]
        | some k =>
          refine congrArg _ (ih ?_)
          have := hR.fails h hk [] (bs := bs) (tail := t) g1 (by simp [g3]) hft (by have := first_lt hft; omega)
          simpa using this
    | reset =>
      rw [Obj.run, ctrRun]
      obtain ⟨blocks, o, h1, h2, h3, h4, h5, h6, h7, h8, h9⟩ := hR
      refine congrArg _ (ih ⟨[], [], .nil, rfl, rfl, h4, Nat.le_refl _, ?_, by simp [served, Spec.Flaky.St.new], rfl, rfl⟩)
      simp only [ctr, h6, hreset, Spec.Flaky.St.new, Nat.sub_self]
      rfl

end Verif.Model.Flaky
