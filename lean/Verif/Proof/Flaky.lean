import Verif.Model.Flaky
import Verif.Proof.StreamErr

/-! Helper lemmas about streams over a cipher that may fail -/

namespace Verif.Model.Flaky
open Verif.Spec
open Verif.Spec.Flaky (Op Rules first twice writeCut writeTwice finishPad finishBlock finishSegments finishKey)

/-- Which calls fail. -/
def bad (fail : Sched) (t : Nat) : Bool := (fail t).isSome

/-- The mode state after the call number `t` failed. -/
def spoiled {σ : Type} (fail : Sched) (spoil : (Bytes → Bytes) → σ → σ) (t : Nat) (s : σ) : σ :=
  match fail t with
  | some g => spoil g s
  | none => s

theorem loop_eq {σ : Type} {fail : Sched} {spoil : (Bytes → Bytes) → σ → σ} {cont : Nat → Bool} {n : Nat} {step : σ → Bytes → Res (σ × Bytes)}
    {f : σ → Bytes → σ × Bytes} {Inv : σ → Prop} {blocks : List Bytes} {tail : Bytes}
    (hstep : ∀ s b, Inv s → b.length = n → step s b = .ok (f s b) ∧ Inv (f s b).1)
    (hb : IsBlocks n blocks) (hn : 0 < n)
    (hc : ∀ k, 0 < k → cont (n * k + tail.length) = true) (ht : cont tail.length = false)
    {s : σ} (hs : Inv s) (t : Nat) (dst data : Bytes) (hd : data = blocks.flatten ++ tail) (fuel : Nat) (hf : data.length < fuel) :
    loop cont n (body fail step spoil) fuel t s dst data =
      match first (bad fail) t blocks.length with
      | none => ⟨t + blocks.length, (runPure f s blocks).1, dst ++ (runPure f s blocks).2, tail, none⟩
      | some k => ⟨t + k + 1, spoiled fail spoil (t + k) (runPure f s (blocks.take k)).1, dst ++ (runPure f s (blocks.take k)).2,
          (blocks.drop k).flatten ++ tail, some (.err .innerErr)⟩ := by
  subst hd
  induction blocks generalizing s dst t fuel with
  | nil =>
    cases fuel with
    | zero => omega
    | succ fuel => simp [loop, ht, runPure, first]
  | cons b bs ih =>
    cases fuel with
    | zero => omega
    | succ fuel =>
      have hlen : ((b :: bs).flatten ++ tail).length = n * (bs.length + 1) + tail.length := by
        rw [List.length_append, hb.length_flatten]; rfl
      obtain ⟨h1, h2⟩ := hstep s b hs hb.head
      have htake : ((b :: bs).flatten ++ tail).take n = b := by
        rw [List.flatten_cons, List.append_assoc, ← hb.head, List.take_left]
      have hdrop : ((b :: bs).flatten ++ tail).drop n = bs.flatten ++ tail := by
        rw [List.flatten_cons, List.append_assoc, ← hb.head, List.drop_left]
      rw [loop, if_pos (by rw [hlen]; exact hc _ (Nat.succ_pos _)), htake, hdrop, body]
      cases hfl : fail t with
      | some g => simp [first, bad, hfl, runPure, spoiled]
      | none =>
        simp only [h1]
        rw [ih hb.tail h2 _ _ _ (by
          rw [List.length_append, hb.tail.length_flatten]
          rw [hlen, Nat.mul_add] at hf
          omega)]
        have hf0 : first (bad fail) t (b :: bs).length = (first (bad fail) (t + 1) bs.length).map (· + 1) := by
          simp [first, bad, hfl]
        rw [hf0]
        cases first (bad fail) (t + 1) bs.length with
        | none =>
          simp only [Option.map_none, List.length_cons, runPure, List.append_assoc]
          rw [show t + 1 + bs.length = t + (bs.length + 1) by omega]
        | some k =>
          simp only [Option.map_some, List.take_succ_cons, List.drop_succ_cons, runPure, List.append_assoc]
          rw [show t + 1 + k = t + (k + 1) by omega]

theorem first_lt {b : Nat → Bool} {t w k : Nat} (h : first b t w = some k) : k < w := by
  induction w generalizing t k with
  | zero => simp [first] at h
  | succ w ih =>
    rw [first] at h
    split at h
    · obtain rfl : 0 = k := by simpa using h
      omega
    · obtain ⟨a, ha, rfl⟩ := Option.map_eq_some_iff.1 h
      have := ih ha
      omega

theorem first_none {b : Nat → Bool} {t w : Nat} : first b t w = none ↔ ∀ i, i < w → b (t + i) = false := by
  induction w generalizing t with
  | zero => simp [first]
  | succ w ih =>
    rw [first]
    constructor
    · intro h i hi
      split at h
      · simp at h
      · rename_i h0
        rw [Option.map_eq_none_iff] at h
        cases i with
        | zero => simpa using h0
        | succ i =>
          have := ih.1 h i (by omega)
          rwa [show t + 1 + i = t + (i + 1) by omega] at this
    · intro h
      rw [if_neg (by have := h 0 (by omega); simpa using this), Option.map_eq_none_iff]
      refine ih.2 fun i hi => ?_
      have := h (i + 1) (by omega)
      rwa [show t + (i + 1) = t + 1 + i by omega] at this

theorem first_some {b : Nat → Bool} {t w k : Nat} : first b t w = some k ↔ k < w ∧ b (t + k) = true ∧ ∀ i, i < k → b (t + i) = false := by
  induction w generalizing t k with
  | zero => simp [first]
  | succ w ih =>
    rw [first]
    by_cases h0 : b t = true
    · rw [if_pos h0]
      constructor
      · intro h
        obtain rfl : 0 = k := by simpa using h
        exact ⟨by omega, by simpa using h0, fun i hi => by omega⟩
      · rintro ⟨-, -, h⟩
        cases k with
        | zero => rfl
        | succ k => have := h 0 (by omega); rw [Nat.add_zero, h0] at this; cases this
    · rw [if_neg h0]
      constructor
      · intro h
        obtain ⟨a, ha, rfl⟩ := Option.map_eq_some_iff.1 h
        obtain ⟨g1, g2, g3⟩ := ih.1 ha
        refine ⟨by omega, by rwa [show t + 1 + a = t + (a + 1) by omega] at g2, fun i hi => ?_⟩
        cases i with
        | zero => simpa using h0
        | succ i =>
          have := g3 i (by omega)
          rwa [show t + 1 + i = t + (i + 1) by omega] at this
      · rintro ⟨g1, g2, g3⟩
        cases k with
        | zero => exact absurd (by simpa using g2) h0
        | succ k =>
          rw [(ih (t := t + 1) (k := k)).2 ⟨by omega, by rwa [show t + (k + 1) = t + 1 + k by omega] at g2, fun i hi => ?_⟩]
          · rfl
          · have := g3 (i + 1) (by omega)
            rwa [show t + (i + 1) = t + 1 + i by omega] at this

/-- What the specification remembers and the stream: the blocks the cipher has served have been processed by `f` from `s0`; the rest is pending. -/
def R {σ : Type} (f : σ → Bytes → σ × Bytes) (n : Nat) (s0 : σ) (x : Spec.Flaky.St) (s : St σ) : Prop :=
  ∃ blocks o, IsBlocks n blocks ∧ blocks.length = x.e ∧ x.m = blocks.flatten ++ s.data ∧ s.calls = x.t ∧ s.st = (runPure f s0 blocks).1 ∧
    o ++ s.pond = (runPure f s0 blocks).2 ∧ o.length = x.h

theorem R.new {σ : Type} {f : σ → Bytes → σ × Bytes} {n : Nat} {s0 : σ} (t : Nat) : R f n s0 (Spec.Flaky.St.new t) (new s0 t) :=
  ⟨[], [], .nil, rfl, rfl, rfl, rfl, rfl, rfl⟩

theorem take_blocks {n : Nat} {blocks : List Bytes} (hb : IsBlocks n blocks) {e : Nat} (he : blocks.length = e) (r : Bytes) :
    (blocks.flatten ++ r).take (n * e) = blocks.flatten ∧ (blocks.flatten ++ r).drop (n * e) = r := by
  have : n * e = blocks.flatten.length := by rw [hb.length_flatten, he]
  rw [this, List.take_left, List.drop_left]
  exact ⟨rfl, rfl⟩

theorem run_eq {σ : Type} {o : Obj σ} {I : Rules} (Q : Spec.Flaky.St → St σ → Prop)
    (hw : ∀ x s d, Q x s → (o.write s d).1 = (I.write x d).1 ∧ Q (I.write x d).2 (o.write s d).2)
    (hn : ∀ s, o.write s [] = (.ok (), s))
    (hd : ∀ x s, Q x s → s.pond = (I.out (x.m.take (I.n * x.e))).drop x.h ∧
      Q { x with h := (I.out (x.m.take (I.n * x.e))).length } { s with pond := [] })
    (hf : ∀ x s, Q x s → (o.finish s).1 = (I.finish x).1 ∧ Q (I.finish x).2 (o.finish s).2)
    (hr : ∀ x s, Q x s → Q (Spec.Flaky.St.new x.t) (o.reset s))
    (ops : List Op) {x : Spec.Flaky.St} {s : St σ} (h : Q x s) : o.run s ops = I.run x ops := by
  induction ops generalizing x s with
  | nil => rfl
  | cons op ops ih =>
    cases op with
    | write d =>
      obtain ⟨h1, h2⟩ := hw x s d h
      rw [Obj.run, Rules.run, h1, ih h2]
    | draw =>
      obtain ⟨h1, h2⟩ := hd x s h
      rw [Obj.run, Rules.run, hn]
      simp only [Except.map]
      rw [← h1, ih h2]
    | finish =>
      obtain ⟨h1, h2⟩ := hf x s h
      rw [Obj.run, Rules.run, h1, ih h2]
    | reset => rw [Obj.run, Rules.run, ih (hr x s h)]

theorem R.draw {σ : Type} {f : σ → Bytes → σ × Bytes} {n : Nat} {s0 : σ} {out : Bytes → Bytes}
    (hout : ∀ blocks, IsBlocks n blocks → out blocks.flatten = (runPure f s0 blocks).2) {x : Spec.Flaky.St} {s : St σ} (h : R f n s0 x s) :
    s.pond = (out (x.m.take (n * x.e))).drop x.h ∧ R f n s0 { x with h := (out (x.m.take (n * x.e))).length } { s with pond := [] } := by
  obtain ⟨blocks, o, h1, h2, h3, h4, h5, h6, h7⟩ := h
  have e : out (x.m.take (n * x.e)) = o ++ s.pond := by rw [h3, (take_blocks h1 h2 _).1, hout _ h1, h6]
  rw [e]
  refine ⟨by rw [← h7, List.drop_left], blocks, o ++ s.pond, h1, h2, h3, h4, h5, ?_, rfl⟩
  rw [List.append_nil, h6]

theorem R.reset {σ : Type} {f : σ → Bytes → σ × Bytes} {n : Nat} {s0 : σ} {x : Spec.Flaky.St} {s : St σ} (h : R f n s0 x s) :
    R f n s0 (Spec.Flaky.St.new x.t) { s with data := [], pond := [], st := s0 } := by
  obtain ⟨_, _, _, _, _, h4, _⟩ := h
  exact ⟨[], [], .nil, rfl, rfl, h4, rfl, rfl, rfl⟩

section
variable {σ : Type} {fail : Sched} {spoil : (Bytes → Bytes) → σ → σ} {n : Nat} {step : σ → Bytes → Res (σ × Bytes)} {f : σ → Bytes → σ × Bytes}
  {Inv : σ → Prop} {s0 : σ}

theorem spoiled_eq (hsp : ∀ t g s, fail t = some g → spoil g s = s) (t : Nat) (s : σ) : spoiled fail spoil t s = s := by
  unfold spoiled
  split
  · exact hsp _ _ _ ‹_›
  · rfl

theorem div_blocks (hn : 0 < n) {blocks : List Bytes} (hb : IsBlocks n blocks) {t : Bytes} (ht : t.length < n) :
    (blocks.flatten ++ t).length / n = blocks.length := by
  rw [List.length_append, hb.length_flatten, Nat.mul_add_div hn, Nat.div_eq_of_lt ht, Nat.add_zero]

theorem flatten_split (bs : List Bytes) (k : Nat) : bs.flatten = (bs.take k).flatten ++ (bs.drop k).flatten := by
  rw [← List.flatten_append, List.take_append_drop]

theorem encWrite_sim (hstep : ∀ s b, Inv s → b.length = n → step s b = .ok (f s b) ∧ Inv (f s b).1) (hn : 0 < n) (h0 : Inv s0)
    (hsp : ∀ t g s, fail t = some g → spoil g s = s) {x : Spec.Flaky.St} {s : St σ} (d : Bytes) (hR : R f n s0 x s) :
    (encWrite n (body fail step spoil) s d).1 = (writeCut (bad fail) n x d).1 ∧
      R f n s0 (writeCut (bad fail) n x d).2 (encWrite n (body fail step spoil) s d).2 := by
  have hR' := hR
  obtain ⟨blocks, o, h1, h2, h3, h4, h5, h6, h7⟩ := hR
  have hinv : Inv s.st := by rw [h5]; exact runPure_inv f Inv n (fun s b a b' => (hstep s b a b').2) h0 h1
  have hml : x.m.length - n * x.e = s.data.length := by
    rw [h3, List.length_append, h1.length_flatten, h2]; omega
  unfold encWrite writeCut
  by_cases hd : d = []
  · subst hd; simpa using hR'
  rw [if_neg (by simpa using hd), if_neg hd, hml]
  by_cases hp : n < s.data.length
  · rw [if_pos hp, if_pos hp]; exact ⟨rfl, hR'⟩
  rw [if_neg hp, if_neg hp]
  by_cases hlt : s.data.length + d.length < n
  · have hmin : min (n - s.data.length) d.length = d.length := by omega
    simp only [hmin, List.take_length, List.drop_length]
    have hq : (x.m ++ d).length / n = x.e := by
      rw [h3, List.append_assoc, div_blocks hn h1 (by simpa using hlt), h2]
    rw [if_neg (by simp; omega), hq, Nat.sub_self]
    simp only [first, Nat.add_zero, encRest]
    rw [loop_eq (blocks := []) (tail := []) (cont := contGe n) hstep .nil hn (fun k hk => contGe_blocks k _ hk) (by simp [contGe]; omega) hinv _ _ _
      (by simp) _ (by simp)]
    simp only [List.length_nil, first, runPure, List.append_nil, Nat.add_zero]
    refine ⟨trivial, blocks, o, h1, h2, by rw [h3, List.append_assoc], h4, h5, h6, h7⟩
  · have hmin : min (n - s.data.length) d.length = n - s.data.length := by omega
    simp only [hmin]
    have hl : (s.data ++ d.take (n - s.data.length)).length = n := by simp; omega
    rw [if_pos hl]
    obtain ⟨bs', t', g1, g2, g3⟩ := exists_blocks hn (d.drop (n - s.data.length))
    obtain ⟨k1, k2⟩ := hstep s.st _ hinv hl
    have hmd : x.m ++ d = (blocks ++ (s.data ++ d.take (n - s.data.length)) :: bs').flatten ++ t' := by
      rw [h3, List.flatten_append, List.flatten_cons]
      simp only [List.append_assoc]
      rw [← g3, List.take_append_drop]
    have hbl : IsBlocks n (blocks ++ (s.data ++ d.take (n - s.data.length)) :: bs') := h1.append (.cons hl g1)
    have hq : (x.m ++ d).length / n = x.e + (bs'.length + 1) := by
      rw [hmd, div_blocks hn hbl g2, List.length_append, h2]; rfl
    rw [hq, Nat.add_sub_cancel_left, first, ← h4, body]
    have hrun : ∀ j, (runPure f s0 (blocks ++ (s.data ++ d.take (n - s.data.length)) :: bs'.take j)) =
        ((runPure f (f s.st (s.data ++ d.take (n - s.data.length))).1 (bs'.take j)).1,
          o ++ (s.pond ++ ((f s.st (s.data ++ d.take (n - s.data.length))).2 ++
            (runPure f (f s.st (s.data ++ d.take (n - s.data.length))).1 (bs'.take j)).2))) := by
      intro j
      rw [runPure_append, ← h5, ← h6]
      simp [runPure]
    cases hfl : fail s.calls with
    | some g =>
      have hb0 : bad fail s.calls = true := by simp [bad, hfl]
      simp only [hb0, if_true, Nat.max_zero, hsp _ _ _ hfl]
      refine ⟨trivial, blocks, o, h1, by simp [h2], ?_, rfl, h5, h6, h7⟩
      simp only
      have := take_blocks (h1.append (.cons hl .nil)) (e := x.e + 1) (by simp [h2]) (bs'.flatten ++ t')
      rw [hmd, show (blocks ++ (s.data ++ d.take (n - s.data.length)) :: bs').flatten ++ t' =
        (blocks ++ [s.data ++ d.take (n - s.data.length)]).flatten ++ (bs'.flatten ++ t') by simp, this.1]
      simp
    | none =>
      have hb0 : bad fail s.calls = false := by simp [bad, hfl]
      simp only [hb0, k1, encRest]
      rw [loop_eq (cont := contGe n) hstep g1 hn (fun k hk => contGe_blocks k _ hk) (by simp [contGe]; omega) k2 _ _ _ g3 _ (Nat.lt_succ_self _)]
      cases hft : first (bad fail) (s.calls + 1) bs'.length with
      | none =>
        simp only [Bool.false_eq_true, if_false, Option.map_none]
        refine ⟨trivial, _, o, hbl, by simp [h2], hmd, by simp; omega, ?_, ?_, h7⟩
        · have := hrun bs'.length
          rw [List.take_length] at this
          rw [this]
        · have := hrun bs'.length
          rw [List.take_length] at this
          rw [this, List.append_assoc]
      | some k =>
        simp only [Bool.false_eq_true, if_false, Option.map_some]
        have hk := first_lt hft
        have hmx : max 1 (k + 1) = k + 1 := by omega
        have hbk : IsBlocks n (blocks ++ (s.data ++ d.take (n - s.data.length)) :: bs'.take k) :=
          h1.append (.cons hl fun b hb => g1 b (List.mem_of_mem_take hb))
        have hlk : (blocks ++ (s.data ++ d.take (n - s.data.length)) :: bs'.take k).length = x.e + (k + 1) := by
          simp [h2]; omega
        refine ⟨trivial, _, o, hbk, hlk, ?_, by simp only; omega, ?_, ?_, h7⟩
        · rw [hmx, hmd]
          simp only [List.append_nil]
          rw [show (blocks ++ (s.data ++ d.take (n - s.data.length)) :: bs').flatten ++ t' =
            (blocks ++ (s.data ++ d.take (n - s.data.length)) :: bs'.take k).flatten ++ ((bs'.drop k).flatten ++ t') by
              simp only [List.flatten_append, List.flatten_cons, List.append_assoc]
              rw [flatten_split bs' k, List.append_assoc],
            (take_blocks hbk hlk _).1]
        · rw [spoiled_eq hsp, hrun k]
        · rw [hrun k, List.append_assoc]

/-- The common part of the streams that keep their data on an error. -/
theorem twice_sim (hstep : ∀ s b, Inv s → b.length = n → step s b = .ok (f s b) ∧ Inv (f s b).1) (h0 : Inv s0)
    {x : Spec.Flaky.St} {s : St σ} (hR : R f n s0 x s) (q : Bytes) {bs : List Bytes} {tail : Bytes} (hb : IsBlocks n bs)
    (hq : s.data ++ q = bs.flatten ++ tail) :
    Inv s.st ∧ R f n s0 ⟨x.m ++ q, x.e + bs.length, x.t + bs.length, x.h⟩
      ⟨tail, s.pond ++ (runPure f s.st bs).2, (runPure f s.st bs).1, s.calls + bs.length⟩ ∧
    ∀ k, k ≤ bs.length → ∀ r, R f n s0 ⟨twice n (x.m ++ q) x.e k, x.e + k, x.t + k + r, x.h⟩
      ⟨s.data ++ q, s.pond ++ (runPure f s.st (bs.take k)).2, (runPure f s.st (bs.take k)).1, s.calls + k + r⟩ := by
  obtain ⟨blocks, o, h1, h2, h3, h4, h5, h6, h7⟩ := hR
  have hinv : Inv s.st := by rw [h5]; exact runPure_inv f Inv n (fun s b a b' => (hstep s b a b').2) h0 h1
  have hrun : ∀ c, runPure f s0 (blocks ++ c) = ((runPure f s.st c).1, o ++ (s.pond ++ (runPure f s.st c).2)) := by
    intro c; rw [runPure_append, ← h5, ← h6, List.append_assoc]
  have hm : x.m ++ q = blocks.flatten ++ (bs.flatten ++ tail) := by rw [h3, List.append_assoc, hq]
  refine ⟨hinv, ⟨blocks ++ bs, o, h1.append hb, by simp [h2], ?_, by simp [h4], ?_, ?_, h7⟩, fun k hk r => ?_⟩
  · rw [hm]; simp
  · rw [hrun]
  · rw [hrun]
  · have hbk : IsBlocks n (blocks ++ bs.take k) := h1.append fun b hb' => hb b (List.mem_of_mem_take hb')
    have hlk : (blocks ++ bs.take k).length = x.e + k := by simp [h2]; omega
    refine ⟨blocks ++ bs.take k, o, hbk, hlk, ?_, by simp [h4], by rw [hrun], by rw [hrun], h7⟩
    simp only [twice]
    rw [hm, (take_blocks h1 h2 _).2, hq]
    congr 1
    rw [flatten_split bs k, show blocks.flatten ++ ((bs.take k).flatten ++ (bs.drop k).flatten ++ tail) =
      (blocks ++ bs.take k).flatten ++ ((bs.drop k).flatten ++ tail) by simp only [List.flatten_append, List.append_assoc],
      (take_blocks hbk hlk _).1]

theorem R.length_m {x : Spec.Flaky.St} {s : St σ} (hR : R f n s0 x s) : x.m.length = n * x.e + s.data.length := by
  obtain ⟨blocks, o, h1, h2, h3, -⟩ := hR
  rw [h3, List.length_append, h1.length_flatten, h2]

theorem R.calls_eq {x : Spec.Flaky.St} {s : St σ} (hR : R f n s0 x s) : s.calls = x.t := by
  obtain ⟨blocks, o, h1, h2, h3, h4, -⟩ := hR
  exact h4

theorem decWrite_sim (hstep : ∀ s b, Inv s → b.length = n → step s b = .ok (f s b) ∧ Inv (f s b).1) (hn : 0 < n) (h0 : Inv s0)
    (hsp : ∀ t g s, fail t = some g → spoil g s = s) {x : Spec.Flaky.St} {s : St σ} (d : Bytes) (hR : R f n s0 x s) :
    (decWrite n (body fail step spoil) s d).1 = (writeTwice (bad fail) n (fun l => (l - 1) / n) x d).1 ∧
      R f n s0 (writeTwice (bad fail) n (fun l => (l - 1) / n) x d).2 (decWrite n (body fail step spoil) s d).2 := by
  unfold decWrite writeTwice
  by_cases hd : d = []
  · subst hd; simpa using hR
  rw [if_neg (by simpa using hd), if_neg hd]
  obtain ⟨bs, l, g1, g3, g2, g4⟩ := exists_blocks_last hn (s.data ++ d) (by simp [hd])
  obtain ⟨e1, e2, e3⟩ := twice_sim hstep h0 hR d g1 g4
  have hc := hR.calls_eq
  have hq : ((x.m ++ d).length - 1) / n = x.e + bs.length := by
    have : (x.m ++ d).length = n * (x.e + bs.length) + l.length := by
      have := congrArg List.length g4
      rw [List.length_append, List.length_append, g1.length_flatten] at this
      rw [List.length_append, hR.length_m, Nat.mul_add]; omega
    rw [this, show n * (x.e + bs.length) + l.length - 1 = n * (x.e + bs.length) + (l.length - 1) by omega, Nat.mul_add_div hn,
      Nat.div_eq_of_lt (by omega), Nat.add_zero]
  simp only [hq, Nat.add_sub_cancel_left]
  rw [loop_eq (cont := contGt n) hstep g1 hn (fun k hk => contGt_blocks k _ hk g2) (by simp [contGt]; omega) e1 _ _ _ g4 _ (Nat.lt_succ_self _), hc]
  rw [hc] at e2 e3
  cases hft : first (bad fail) x.t bs.length with
  | none => exact ⟨rfl, e2⟩
  | some k =>
    simp only [spoiled_eq hsp]
    exact ⟨trivial, e3 k (Nat.le_of_lt (first_lt hft)) 1⟩

theorem served_whole (hn : 0 < n) {x : Spec.Flaky.St} {s : St σ} (hR : R f n s0 x s) {d : Bytes} {bs : List Bytes} {t : Bytes} (g1 : IsBlocks n bs)
    (g2 : t.length < n) (g3 : s.data ++ d = bs.flatten ++ t) : (x.m ++ d).length / n = x.e + bs.length := by
  have : (x.m ++ d).length = n * (x.e + bs.length) + t.length := by
    have := congrArg List.length g3
    rw [List.length_append, List.length_append, g1.length_flatten] at this
    rw [List.length_append, hR.length_m, Nat.mul_add]; omega
  rw [this, Nat.mul_add_div hn, Nat.div_eq_of_lt g2, Nat.add_zero]

theorem bound_eq {bs : List Bytes} {t total : Bytes} (g1 : IsBlocks n bs) (g2 : t.length < n) (g3 : total = bs.flatten ++ t) :
    total.take (total.length - total.length % n) = bs.flatten ∧ total.drop (total.length - total.length % n) = t := by
  have hl : total.length = n * bs.length + t.length := by rw [g3, List.length_append, g1.length_flatten]
  have : total.length - total.length % n = bs.flatten.length := by
    rw [g1.length_flatten, hl, Nat.mul_add_mod, Nat.mod_eq_of_lt g2]; omega
  rw [this, g3, List.take_left, List.drop_left]
  exact ⟨rfl, rfl⟩

theorem wholeWrite_sim (hstep : ∀ s b, Inv s → b.length = n → step s b = .ok (f s b) ∧ Inv (f s b).1) (hn : 0 < n) (h0 : Inv s0)
    (hsp : ∀ t g s, fail t = some g → spoil g s = s) {x : Spec.Flaky.St} {s : St σ} (d : Bytes) (hR : R f n s0 x s) :
    (wholeWrite n (body fail step spoil) s d).1 = (writeTwice (bad fail) n (fun l => l / n) x d).1 ∧
      R f n s0 (writeTwice (bad fail) n (fun l => l / n) x d).2 (wholeWrite n (body fail step spoil) s d).2 := by
  unfold wholeWrite writeTwice
  by_cases hd : d = []
  · subst hd; simpa using hR
  rw [if_neg (by simpa using hd), if_neg hd]
  obtain ⟨bs, t, g1, g2, g3⟩ := exists_blocks hn (s.data ++ d)
  obtain ⟨e1, e2, e3⟩ := twice_sim hstep h0 hR d g1 g3
  have hc := hR.calls_eq
  simp only [served_whole hn hR g1 g2 g3, Nat.add_sub_cancel_left, (bound_eq g1 g2 g3).1, (bound_eq g1 g2 g3).2]
  rw [loop_eq (tail := []) (cont := contNe) hstep g1 hn (fun k hk => contNe_blocks hn k _ hk) (by simp [contNe]) e1 _ _ _ (List.append_nil _).symm _
    (Nat.lt_succ_self _), hc]
  rw [hc] at e2 e3
  cases hft : first (bad fail) x.t bs.length with
  | none => exact ⟨rfl, e2⟩
  | some k =>
    simp only [spoiled_eq hsp]
    exact ⟨trivial, e3 k (Nat.le_of_lt (first_lt hft)) 1⟩

end

theorem ofbWrite_sim {fail : Sched} {spoil : (Bytes → Bytes) → Bytes → Bytes} {n : Nat} {step : Bytes → Bytes → Res (Bytes × Bytes)}
    {f : Bytes → Bytes → Bytes × Bytes} {Inv : Bytes → Prop} {s0 : Bytes}
    (hstep : ∀ s b, Inv s → b.length = n → step s b = .ok (f s b) ∧ Inv (f s b).1) (hn : 0 < n) (h0 : Inv s0)
    (hsp : ∀ t g s, fail t = some g → spoil g s = s) {x : Spec.Flaky.St} {s : St Bytes} (d : Bytes) (hR : R f n s0 x s) :
    (ofbWrite n (body fail step spoil) s d).1 = (writeTwice (bad fail) n (fun l => l / n) x d).1 ∧
      R f n s0 (writeTwice (bad fail) n (fun l => l / n) x d).2 (ofbWrite n (body fail step spoil) s d).2 := by
  unfold ofbWrite writeTwice
  by_cases hd : d = []
  · subst hd; simpa using hR
  rw [if_neg (by simpa using hd), if_neg hd]
  obtain ⟨bs, t, g1, g2, g3⟩ := exists_blocks hn (s.data ++ d)
  obtain ⟨e1, e2, e3⟩ := twice_sim hstep h0 hR d g1 g3
  have hc := hR.calls_eq
  simp only [served_whole hn hR g1 g2 g3, Nat.add_sub_cancel_left, (bound_eq g1 g2 g3).2]
  rw [loop_eq (cont := contGe n) hstep g1 hn (fun k hk => contGe_blocks k _ hk) (by simp [contGe]; omega) e1 _ _ _ g3 _ (Nat.lt_succ_self _), hc]
  rw [hc] at e2 e3
  cases hft : first (bad fail) x.t bs.length with
  | none => exact ⟨rfl, e2⟩
  | some k =>
    simp only [spoiled_eq hsp]
    exact ⟨trivial, e3 k (Nat.le_of_lt (first_lt hft)) 1⟩

theorem R.data_eq {σ : Type} {f : σ → Bytes → σ × Bytes} {n : Nat} {s0 : σ} {x : Spec.Flaky.St} {s : St σ} (hR : R f n s0 x s) :
    x.m.drop (n * x.e) = s.data ∧ ∀ r, R f n s0 { x with m := x.m.take (n * x.e) ++ r } { s with data := r } := by
  obtain ⟨blocks, o, h1, h2, h3, h4, h5, h6, h7⟩ := hR
  refine ⟨by rw [h3, (take_blocks h1 h2 _).2], fun r => ⟨blocks, o, h1, h2, ?_, h4, h5, h6, h7⟩⟩
  simp only [h3, (take_blocks h1 h2 _).1]

theorem R.out_eq {σ : Type} {f : σ → Bytes → σ × Bytes} {n : Nat} {s0 : σ} {x : Spec.Flaky.St} {s : St σ} (hR : R f n s0 x s)
    {bs : List Bytes} {tail : Bytes} (hb : IsBlocks n bs) (hd : s.data = bs.flatten ++ tail) {out : Bytes → Bytes}
    (hout : ∀ blocks, IsBlocks n blocks → out (blocks.flatten ++ tail) = (runPure f s0 blocks).2) :
    (out x.m).drop x.h = s.pond ++ (runPure f s.st bs).2 := by
  obtain ⟨blocks, o, h1, h2, h3, h4, h5, h6, h7⟩ := hR
  rw [h3, hd, ← List.append_assoc, ← List.flatten_append, hout _ (h1.append hb), runPure_append, ← h5, ← h6, List.append_assoc, ← h7, List.drop_left]

theorem encFinish_sim {fail : Sched} {spoil : (Bytes → Bytes) → Unit → Unit} {n : Nat} {step : Unit → Bytes → Res (Unit × Bytes)}
    {f : Unit → Bytes → Unit × Bytes} (hstep : ∀ s b, True → b.length = n → step s b = .ok (f s b) ∧ True) (hn : 0 < n) {p : Padding}
    (hp : ∀ d, ∃ pb, IsBlocks n pb ∧ p.padding d = pb.flatten) {out : Bytes → Bytes}
    (hout : ∀ blocks, IsBlocks n blocks → out blocks.flatten = (runPure f () blocks).2) {x : Spec.Flaky.St} {s : St Unit} (hR : R f n () x s) :
    (encFinish n (body fail step spoil) p s).1 = (finishPad (bad fail) n p.padding out x).1 ∧
      R f n () (finishPad (bad fail) n p.padding out x).2 (encFinish n (body fail step spoil) p s).2 := by
  obtain ⟨pb, g1, g2⟩ := hp s.data
  obtain ⟨e1, e2⟩ := hR.data_eq
  have hR2 := e2 (p.padding s.data)
  obtain ⟨-, e3, e4⟩ := twice_sim (Inv := fun _ => True) hstep trivial hR2 [] (bs := pb) (tail := []) g1 (by simp [g2])
  have hc := hR.calls_eq
  have hlen : (x.m.take (n * x.e) ++ p.padding s.data).length / n = x.e + pb.length := by
    have := served_whole hn hR2 (d := []) g1 (t := []) hn (by simp [g2])
    simpa using this
  unfold encFinish finishPad
  simp only [e1, hlen, Nat.add_sub_cancel_left]
  rw [loop_eq (tail := []) (cont := contNe) hstep g1 hn (fun k hk => contNe_blocks hn k _ hk) (by simp [contNe]) trivial _ _ _ (by simp [g2]) _
    (Nat.lt_succ_self _), hc]
  cases hft : first (bad fail) x.t pb.length with
  | none =>
    simp only
    have := hR2.out_eq g1 (tail := []) (by simp [g2]) (out := out) (by simpa using hout)
    simp only at this
    exact ⟨by rw [this], R.new _⟩
  | some k =>
    simp only
    have := e4 k (Nat.le_of_lt (first_lt hft)) 1
    simp only [List.append_nil] at this
    rw [hc] at this
    exact ⟨trivial, this⟩

theorem cfbFinish_sim {fail : Sched} {spoil : (Bytes → Bytes) → Bytes → Bytes} {n : Nat} {step : Bytes → Bytes → Res (Bytes × Bytes)}
    {f : Bytes → Bytes → Bytes × Bytes} {Inv : Bytes → Prop} {iv : Bytes}
    (hstep : ∀ s b, Inv s → b.length = n → step s b = .ok (f s b) ∧ Inv (f s b).1) (hn : 0 < n) (h0 : Inv iv)
    (hsp : ∀ t g s, fail t = some g → spoil g s = s) (p : Padding) {out : Bytes → Bytes}
    (hout : ∀ blocks tail, IsBlocks n blocks → tail.length < n → out (blocks.flatten ++ tail) = (runPure f iv blocks).2)
    {x : Spec.Flaky.St} {s : St Bytes} (hR : R f n iv x s) :
    (cfbFinish n (body fail step spoil) p iv s).1 = (finishPad (bad fail) n p.padding out x).1 ∧
      R f n iv (finishPad (bad fail) n p.padding out x).2 (cfbFinish n (body fail step spoil) p iv s).2 := by
  obtain ⟨pb, t, g1, g2, g3⟩ := exists_blocks hn (p.padding s.data)
  obtain ⟨e1, e2⟩ := hR.data_eq
  have hR2 := e2 (p.padding s.data)
  obtain ⟨e0, e3, e4⟩ := twice_sim hstep h0 hR2 [] (bs := pb) (tail := t) g1 (by simp [g3])
  have hc := hR.calls_eq
  have hlen : (x.m.take (n * x.e) ++ p.padding s.data).length / n = x.e + pb.length := by
    have := served_whole hn hR2 (d := []) g1 (t := t) g2 (by simp [g3])
    simpa using this
  unfold cfbFinish finishPad
  simp only [e1, hlen, Nat.add_sub_cancel_left]
  rw [loop_eq (tail := t) (cont := contGe n) hstep g1 hn (fun k hk => contGe_blocks k _ hk) (by simp [contGe]; omega) e0 _ _ _ g3 _
    (Nat.lt_succ_self _), hc]
  cases hft : first (bad fail) x.t pb.length with
  | none =>
    simp only
    have := hR2.out_eq g1 (tail := t) g3 (out := out) (fun b hb => hout b t hb g2)
    simp only at this
    exact ⟨by rw [this], R.new _⟩
  | some k =>
    simp only [spoiled_eq hsp]
    have := e4 k (Nat.le_of_lt (first_lt hft)) 1
    simp only [List.append_nil] at this
    rw [hc] at this
    exact ⟨trivial, this⟩

theorem R.tick {σ : Type} {f : σ → Bytes → σ × Bytes} {n : Nat} {s0 : σ} {x : Spec.Flaky.St} {s : St σ} (hR : R f n s0 x s) :
    R f n s0 { x with t := x.t + 1 } { s with calls := s.calls + 1 } := by
  obtain ⟨blocks, o, h1, h2, h3, h4, h5, h6, h7⟩ := hR
  exact ⟨blocks, o, h1, h2, h3, by simp only [h4], h5, h6, h7⟩

theorem decFinish_sim {σ : Type} {fail : Sched} {c : BlockCipher} {E D : Bytes → Bytes} (h : Lawful c E D) {f : σ → Bytes → σ × Bytes} {Inv : σ → Prop} {s0 : σ}
    (hf : ∀ s b, Inv s → b.length = c.bs → Inv (f s b).1 ∧ (f s b).2.length = c.bs) (h0 : Inv s0) {last : σ → Bytes → Bytes} {start : σ → σ}
    (hlast : ∀ s b, Inv s → b.length = c.bs → last s (D b) = (f s b).2) (hstart : ∀ s, start s = s0) (p : Padding) {out : Bytes → Bytes}
    (hout : ∀ blocks, IsBlocks c.bs blocks → out blocks.flatten = (runPure f s0 blocks).2)
    {x : Spec.Flaky.St} {s : St σ} (hR : R f c.bs s0 x s) :
    (decFinish fail c last start p s).1 = (finishBlock (bad fail) c.bs p.unpad out x).1 ∧
      R f c.bs s0 (finishBlock (bad fail) c.bs p.unpad out x).2 (decFinish fail c last start p s).2 := by
  have hlm := hR.length_m
  have hc := hR.calls_eq
  have hR1 := hR.tick
  unfold decFinish finishBlock
  cases hfl : fail s.calls with
  | some g =>
    rw [if_pos (by rw [← hc]; simp [bad, hfl])]
    exact ⟨rfl, hR1⟩
  | none =>
    rw [if_neg (by rw [← hc]; simp [bad, hfl])]
    simp only
    by_cases hd : s.data.length = c.bs
    · rw [if_neg (by rw [hlm, hd, Nat.mul_add]; simp), h.dec _ hd]
      obtain ⟨blocks, o, h1, h2, h3, h4, h5, h6, h7⟩ := hR
      have hinv : Inv s.st := by rw [h5]; exact runPure_inv f Inv c.bs (fun s b a b' => (hf s b a b').1) h0 h1
      have hout' : out x.m = (o ++ s.pond) ++ (f s.st s.data).2 := by
        rw [h3, show blocks.flatten ++ s.data = (blocks ++ [s.data]).flatten by simp, hout _ (h1.append (.cons hd .nil)), runPure_append, ← h5, ← h6]
        simp [runPure]
      have hol : c.bs * x.e = (o ++ s.pond).length := by
        rw [h6, length_runPure Inv hf h0 blocks h1, h2]
      rw [hout', hol, List.drop_left, List.take_left]
      simp only
      rw [hlast _ _ hinv hd]
      cases hu : p.unpad (f s.st s.data).2 with
      | error e => exact ⟨rfl, hR1⟩
      | ok r =>
        simp only
        rw [← h7, List.drop_left, hstart, ← hc]
        exact ⟨rfl, R.new _⟩
    · rw [if_pos (by rw [hlm, Nat.mul_add]; omega), h.decErr _ hd]
      exact ⟨rfl, hR1⟩

/-- The loop with the condition `!data.is_empty()` when a short block comes last, which the body refuses. -/
theorem loop_tail {σ : Type} {fail : Sched} {spoil : (Bytes → Bytes) → σ → σ} {n : Nat} {step : σ → Bytes → Res (σ × Bytes)}
    {f : σ → Bytes → σ × Bytes} {Inv : σ → Prop} {blocks : List Bytes} {tail : Bytes} {er : Fault}
    (hstep : ∀ s b, Inv s → b.length = n → step s b = .ok (f s b) ∧ Inv (f s b).1)
    (htail : ∀ s, Inv s → step s tail = .error er)
    (hb : IsBlocks n blocks) (hn : 0 < n) (ht : tail.length < n) (ht0 : 0 < tail.length)
    {s : σ} (hs : Inv s) (t : Nat) (dst data : Bytes) (hd : data = blocks.flatten ++ tail) (fuel : Nat) (hf : data.length < fuel) :
    loop contNe n (body fail step spoil) fuel t s dst data =
      match first (bad fail) t blocks.length with
      | none => ⟨t + blocks.length + 1, spoiled fail spoil (t + blocks.length) (runPure f s blocks).1, dst ++ (runPure f s blocks).2, tail,
          some (if bad fail (t + blocks.length) then .err .innerErr else er)⟩
      | some k => ⟨t + k + 1, spoiled fail spoil (t + k) (runPure f s (blocks.take k)).1, dst ++ (runPure f s (blocks.take k)).2,
          (blocks.drop k).flatten ++ tail, some (.err .innerErr)⟩ := by
  subst hd
  induction blocks generalizing s dst t fuel with
  | nil =>
    cases fuel with
    | zero => omega
    | succ fuel =>
      simp only [List.flatten_nil, List.nil_append]
      rw [loop, if_pos (by simp [contNe, ht0]), List.take_of_length_le (by omega), body]
      cases hfl : fail t with
      | some g => simp [first, bad, hfl, runPure, spoiled]
      | none => simp [first, bad, hfl, runPure, spoiled, htail s hs]
  | cons b bs ih =>
    cases fuel with
    | zero => omega
    | succ fuel =>
      have hlen : ((b :: bs).flatten ++ tail).length = n * (bs.length + 1) + tail.length := by
        rw [List.length_append, hb.length_flatten]; rfl
      obtain ⟨h1, h2⟩ := hstep s b hs hb.head
      have htake : ((b :: bs).flatten ++ tail).take n = b := by
        rw [List.flatten_cons, List.append_assoc, ← hb.head, List.take_left]
      have hdrop : ((b :: bs).flatten ++ tail).drop n = bs.flatten ++ tail := by
        rw [List.flatten_cons, List.append_assoc, ← hb.head, List.drop_left]
      rw [loop, if_pos (by rw [hlen]; exact contNe_blocks hn _ _ (Nat.succ_pos _)), htake, hdrop, body]
      cases hfl : fail t with
      | some g => simp [first, bad, hfl, runPure, spoiled]
      | none =>
        simp only [h1]
        rw [ih hb.tail h2 _ _ _ (by
          rw [List.length_append, hb.tail.length_flatten]
          rw [hlen, Nat.mul_add] at hf
          omega)]
        have hf0 : first (bad fail) t (b :: bs).length = (first (bad fail) (t + 1) bs.length).map (· + 1) := by
          simp [first, bad, hfl]
        rw [hf0]
        cases first (bad fail) (t + 1) bs.length with
        | none =>
          simp only [Option.map_none, List.length_cons, runPure, List.append_assoc]
          rw [show t + 1 + bs.length = t + (bs.length + 1) by omega]
        | some k =>
          simp only [Option.map_some, List.take_succ_cons, List.drop_succ_cons, runPure, List.append_assoc]
          rw [show t + 1 + k = t + (k + 1) by omega]

theorem cfbDecFinish_sim {fail : Sched} {spoil : (Bytes → Bytes) → Bytes → Bytes} {n : Nat} {step : Bytes → Bytes → Res (Bytes × Bytes)}
    {f : Bytes → Bytes → Bytes × Bytes} {Inv : Bytes → Prop} {iv : Bytes}
    (hstep : ∀ s b, Inv s → b.length = n → step s b = .ok (f s b) ∧ Inv (f s b).1)
    (htail : ∀ s b, Inv s → b.length < n → step s b = .error .panic) (hn : 0 < n) (h0 : Inv iv)
    (hsp : ∀ t g s, fail t = some g → spoil g s = s) (p : Padding) {out : Bytes → Bytes}
    (hout : ∀ blocks, IsBlocks n blocks → out blocks.flatten = (runPure f iv blocks).2) {x : Spec.Flaky.St} {s : St Bytes} (hR : R f n iv x s) :
    (cfbDecFinish n (body fail step spoil) p iv s).1 = (finishSegments (bad fail) n p.unpad out x).1 ∧
      R f n iv (finishSegments (bad fail) n p.unpad out x).2 (cfbDecFinish n (body fail step spoil) p iv s).2 := by
  obtain ⟨bs, t, g1, g2, g3⟩ := exists_blocks hn s.data
  obtain ⟨e0, e3, e4⟩ := twice_sim hstep h0 hR [] (bs := bs) (tail := t) g1 (by simp [g3])
  simp only [List.append_nil] at e3 e4
  have hc := hR.calls_eq
  have hlm := hR.length_m
  have hlen : x.m.length / n = x.e + bs.length := by
    have := served_whole hn hR (d := []) g1 (t := t) g2 (by simp [g3])
    simpa using this
  have hmod : x.m.length % n = t.length := by
    rw [hlm, g3, List.length_append, g1.length_flatten, ← Nat.add_assoc, ← Nat.mul_add, Nat.mul_add_mod, Nat.mod_eq_of_lt g2]
  rw [hc] at e4
  unfold cfbDecFinish finishSegments
  simp only [hlen, Nat.add_sub_cancel_left, hmod]
  by_cases ht : t = []
  · subst ht
    have g3' : s.data = bs.flatten := by simpa using g3
    rw [loop_eq (tail := []) (cont := contNe) hstep g1 hn (fun k hk => contNe_blocks hn k _ hk) (by simp [contNe]) e0 _ _ _ g3 _
      (Nat.lt_succ_self _), hc]
    cases hft : first (bad fail) x.t bs.length with
    | none =>
      simp only [List.length_nil, ne_eq, not_true_eq_false, if_false]
      rw [hR.out_eq g1 (tail := []) g3 (out := out) (by simpa using hout)]
      cases hu : p.unpad (s.pond ++ (runPure f s.st bs).2) with
      | ok r => exact ⟨rfl, R.new _⟩
      | error e =>
        have := e4 bs.length (Nat.le_refl _) 0
        simp only [List.take_length, Nat.add_zero] at this
        exact ⟨rfl, this⟩
    | some k =>
      simp only [spoiled_eq hsp]
      exact ⟨trivial, e4 k (Nat.le_of_lt (first_lt hft)) 1⟩
  · have ht0 : 0 < t.length := List.length_pos_iff.2 ht
    rw [loop_tail (er := .panic) hstep (fun s hs => htail s t hs g2) g1 hn g2 ht0 e0 _ _ _ g3 _ (Nat.lt_succ_self _), hc]
    cases hft : first (bad fail) x.t bs.length with
    | none =>
      simp only [spoiled_eq hsp]
      rw [if_pos (show t.length ≠ 0 by omega)]
      have := e4 bs.length (Nat.le_refl _) 1
      simp only [List.take_length] at this
      exact ⟨rfl, this⟩
    | some k =>
      simp only [spoiled_eq hsp]
      exact ⟨trivial, e4 k (Nat.le_of_lt (first_lt hft)) 1⟩

theorem ofbFinish_sim {fail : Sched} {c : BlockCipher} {E D : Bytes → Bytes} (h : Lawful c E D) {iv : Bytes} (hiv : iv.length = c.bs)
    {x : Spec.Flaky.St} {s : St Bytes} (hR : R (OFB.stepF E) c.bs iv x s) :
    (ofbFinish fail c iv s).1 = (finishKey (bad fail) c.bs (Spec.ofb E c.bs iv) x).1 ∧
      R (OFB.stepF E) c.bs iv (finishKey (bad fail) c.bs (Spec.ofb E c.bs iv) x).2 (ofbFinish fail c iv s).2 := by
  have hc := hR.calls_eq
  have hlm := hR.length_m
  have hR1 := hR.tick
  unfold ofbFinish finishKey
  by_cases hd : s.data = []
  · rw [if_pos (by simp [hd]), if_pos (by rw [hlm, hd]; simp)]
    have := hR.out_eq (bs := []) (tail := []) .nil (by simp [hd]) (out := Spec.ofb E c.bs iv)
      (fun b hb => by rw [List.append_nil, OFB.runPure_stepF_snd h hiv hb])
    simp only [runPure, List.append_nil] at this
    rw [this, hc]
    exact ⟨rfl, R.new _⟩
  · have hd0 : 0 < s.data.length := List.length_pos_iff.2 hd
    rw [if_neg (by simpa using hd), if_neg (by omega)]
    cases hfl : fail s.calls with
    | some g =>
      rw [if_pos (by rw [← hc]; simp [bad, hfl])]
      exact ⟨rfl, hR1⟩
    | none =>
      rw [if_neg (by rw [← hc]; simp [bad, hfl])]
      obtain ⟨blocks, o, h1, h2, h3, h4, h5, h6, h7⟩ := hR
      have hst : s.st.length = c.bs := by rw [h5]; exact OFB.stepF_inv h hiv h1
      rw [h.enc _ hst]
      simp only
      refine ⟨?_, by rw [hc]; exact R.new _⟩
      have hE := h.lenE _ hst
      have hm : x.m.take (c.bs * (x.e + 1)) = blocks.flatten ++ s.data.take c.bs := by
        rw [h3, Nat.mul_add, Nat.mul_one, ← h2, ← h1.length_flatten, List.take_length_add_append]
      rw [hm]
      have hx : xorBytes s.data ((E s.st).take s.data.length) = xorBytes (s.data.take c.bs) (E s.st) := by
        rw [xorBytes_take_right, xorBytes_comm, ← xorBytes_take_right, hE, xorBytes_comm]
      have ho : Spec.ofb E c.bs iv (blocks.flatten ++ s.data.take c.bs) = o ++ (s.pond ++ xorBytes (s.data.take c.bs) (E s.st)) := by
        have := OFB.runPure_stepF_snd h hiv h1
        rw [← h6] at this
        rw [← List.append_assoc, this]
        unfold Spec.ofb
        rw [streamXor_blocks _ h.pos (OFB.length_ofbBlock h hiv) h1,
          streamXor_short (fun i => ofbBlock E iv (i + blocks.length)) h.pos (OFB.length_ofbBlock h hiv _) (by rw [List.length_take]; omega),
          h5, OFB.runPure_stepF_fst (E := E), Nat.zero_add]
      rw [hx, ho, ← h7, List.drop_left]

end Verif.Model.Flaky
