import Verif.Model.Stream
import Verif.Spec.Modes

/-! Helper lemmas: xor, blocks, block loops and stream clients -/

namespace Verif

theorem length_xorBytes (a b : Bytes) : (xorBytes a b).length = min a.length b.length := by
  simp [xorBytes]

theorem xorBytes_comm (a b : Bytes) : xorBytes a b = xorBytes b a := by
  unfold xorBytes
  induction a generalizing b with
  | nil => simp
  | cons x a ih => cases b with
    | nil => simp
    | cons y b => simp [ih, BitVec.xor_comm]

theorem xorBytes_cancel (a b : Bytes) (h : a.length ≤ b.length) : xorBytes (xorBytes a b) b = a := by
  unfold xorBytes
  induction a generalizing b with
  | nil => simp
  | cons x a ih => cases b with
    | nil => simp at h
    | cons y b =>
      simp only [List.length_cons, Nat.add_le_add_iff_right] at h
      simp [ih b h, BitVec.xor_assoc]

theorem xorBytes_append (a b c d : Bytes) (h : a.length = b.length) :
    xorBytes (a ++ c) (b ++ d) = xorBytes a b ++ xorBytes c d := by
  unfold xorBytes
  exact List.zipWith_append h

theorem xorBytes_take_right (a b : Bytes) : xorBytes a (b.take a.length) = xorBytes a b := by
  unfold xorBytes
  induction a generalizing b with
  | nil => simp
  | cons x a ih => cases b with
    | nil => simp
    | cons y b => simp [ih]

@[simp] theorem xorBytes_nil_left (b : Bytes) : xorBytes [] b = [] := by simp [xorBytes]
@[simp] theorem xorBytes_nil_right (b : Bytes) : xorBytes b [] = [] := by simp [xorBytes]

namespace Spec

theorem IsBlocks.nil {n : Nat} : IsBlocks n [] := by intro b hb; simp at hb

theorem IsBlocks.cons {n : Nat} {b : Bytes} {bs : List Bytes} (h : b.length = n) (hs : IsBlocks n bs) :
    IsBlocks n (b :: bs) := by
  intro x hx
  rcases List.mem_cons.1 hx with rfl | hx
  · exact h
  · exact hs _ hx

theorem IsBlocks.append {n : Nat} {a b : List Bytes} (ha : IsBlocks n a) (hb : IsBlocks n b) :
    IsBlocks n (a ++ b) := by
  intro x hx
  rcases List.mem_append.1 hx with hx | hx
  · exact ha _ hx
  · exact hb _ hx

theorem IsBlocks.head {n : Nat} {b : Bytes} {bs : List Bytes} (h : IsBlocks n (b :: bs)) : b.length = n :=
  h b (by simp)

theorem IsBlocks.tail {n : Nat} {b : Bytes} {bs : List Bytes} (h : IsBlocks n (b :: bs)) : IsBlocks n bs :=
  fun x hx => h x (by simp [hx])

theorem IsBlocks.length_flatten {n : Nat} {bs : List Bytes} (h : IsBlocks n bs) :
    bs.flatten.length = n * bs.length := by
  induction bs with
  | nil => simp
  | cons b bs ih =>
    simp only [List.flatten_cons, List.length_append, List.length_cons, h.head, ih h.tail]
    rw [Nat.mul_add, Nat.mul_one, Nat.add_comm]

theorem blocksOf_isBlocks (n : Nat) (m : Bytes) : IsBlocks n (blocksOf n m) := by
  intro b hb
  simp only [blocksOf, List.mem_map, List.mem_range] at hb
  obtain ⟨i, hi, rfl⟩ := hb
  rw [List.length_take, List.length_drop]
  have h1 : (i + 1) * n ≤ m.length := by
    calc (i + 1) * n ≤ (m.length / n) * n := Nat.mul_le_mul_right _ hi
      _ ≤ m.length := Nat.div_mul_le_self _ _
  rw [Nat.add_mul, Nat.one_mul] at h1
  omega

theorem blocksOf_cons {n : Nat} (hn : 0 < n) {b : Bytes} (hb : b.length = n) (m : Bytes) :
    blocksOf n (b ++ m) = b :: blocksOf n m := by
  unfold blocksOf
  rw [List.length_append, hb, Nat.add_div_left _ hn, List.range_succ_eq_map]
  simp only [List.map_cons, Nat.zero_mul, List.drop_zero, List.map_map]
  congr 1
  · simp [← hb]
  · apply List.map_congr_left
    intro i _
    simp only [Function.comp, Nat.succ_eq_add_one]
    rw [show (i + 1) * n = b.length + i * n by rw [Nat.add_mul, hb]; omega, List.drop_append,
      List.drop_eq_nil_of_le (by omega)]
    simp

theorem blocksOf_short {n : Nat} {m : Bytes} (h : m.length < n) : blocksOf n m = [] := by
  simp [blocksOf, Nat.div_eq_of_lt h]

/-- The blocks of a concatenation of blocks and a short tail. -/
theorem blocksOf_flatten {n : Nat} (hn : 0 < n) {bs : List Bytes} (h : IsBlocks n bs) {t : Bytes} (ht : t.length < n) :
    blocksOf n (bs.flatten ++ t) = bs := by
  induction bs with
  | nil => simpa using blocksOf_short ht
  | cons b bs ih =>
    rw [List.flatten_cons, List.append_assoc, blocksOf_cons hn h.head, ih h.tail]

theorem blocksOf_flatten' {n : Nat} (hn : 0 < n) {bs : List Bytes} (h : IsBlocks n bs) : blocksOf n bs.flatten = bs := by
  have := blocksOf_flatten hn h (t := []) hn
  simpa using this

/-- Every message is its blocks followed by a short tail. -/
theorem exists_blocks {n : Nat} (hn : 0 < n) (m : Bytes) :
    ∃ bs t, IsBlocks n bs ∧ t.length < n ∧ m = bs.flatten ++ t := by
  induction h : m.length using Nat.strongRecOn generalizing m with
  | _ k ih =>
    by_cases hk : m.length < n
    · exact ⟨[], m, .nil, hk, by simp⟩
    · obtain ⟨bs, t, h1, h2, h3⟩ := ih (m.drop n).length (by rw [List.length_drop]; omega) (m.drop n) rfl
      refine ⟨m.take n :: bs, t, .cons (by rw [List.length_take]; omega) h1, h2, ?_⟩
      rw [List.flatten_cons, List.append_assoc, ← h3, List.take_append_drop]

theorem flatten_blocksOf {n : Nat} (hn : 0 < n) {m : Bytes} (h : m.length % n = 0) :
    (blocksOf n m).flatten = m := by
  obtain ⟨bs, t, h1, h2, rfl⟩ := exists_blocks hn m
  rw [blocksOf_flatten hn h1 h2]
  rw [List.length_append, h1.length_flatten, Nat.mul_add_mod, Nat.mod_eq_of_lt h2] at h
  simp [List.length_eq_zero_iff.1 h]

theorem blocksOf_append {n : Nat} (hn : 0 < n) {bs : List Bytes} (h : IsBlocks n bs) (m : Bytes) :
    blocksOf n (bs.flatten ++ m) = bs ++ blocksOf n m := by
  induction bs with
  | nil => simp
  | cons b bs ih =>
    rw [List.flatten_cons, List.append_assoc, blocksOf_cons hn h.head, ih h.tail]; simp

end Spec

namespace Model
open Spec

/-- Run a total step over a list of blocks, concatenating the output. -/
def runPure {σ : Type} (f : σ → Bytes → σ × Bytes) : σ → List Bytes → σ × Bytes
  | s, [] => (s, [])
  | s, b :: bs => ((runPure f (f s b).1 bs).1, (f s b).2 ++ (runPure f (f s b).1 bs).2)

theorem runPure_append {σ : Type} (f : σ → Bytes → σ × Bytes) (s : σ) (a b : List Bytes) :
    runPure f s (a ++ b) =
      ((runPure f (runPure f s a).1 b).1, (runPure f s a).2 ++ (runPure f (runPure f s a).1 b).2) := by
  induction a generalizing s with
  | nil => simp [runPure]
  | cons x a ih => simp [runPure, ih, List.append_assoc]

theorem runPure_inv {σ : Type} (f : σ → Bytes → σ × Bytes) (Inv : σ → Prop) (n : Nat)
    (hf : ∀ s b, Inv s → b.length = n → Inv (f s b).1) {s : σ} (hs : Inv s) {bs : List Bytes} (hb : IsBlocks n bs) :
    Inv (runPure f s bs).1 := by
  induction bs generalizing s with
  | nil => exact hs
  | cons b bs ih => exact ih (hf _ _ hs hb.head) hb.tail

/-- The loop processes exactly the leading blocks and stops at the tail. -/
theorem whileLen_eq {σ : Type} {cont : Nat → Bool} {n : Nat} {step : σ → Bytes → Res (σ × Bytes)}
    {f : σ → Bytes → σ × Bytes} {Inv : σ → Prop} {blocks : List Bytes} {tail : Bytes}
    (hstep : ∀ s b, Inv s → b.length = n → step s b = .ok (f s b) ∧ Inv (f s b).1)
    (hb : IsBlocks n blocks) (hn : 0 < n)
    (hc : ∀ k, 0 < k → cont (n * k + tail.length) = true) (ht : cont tail.length = false)
    {s : σ} (hs : Inv s) (dst data : Bytes) (hd : data = blocks.flatten ++ tail) :
    whileLen cont n step (data.length + 1) s dst data =
      .ok ((runPure f s blocks).1, dst ++ (runPure f s blocks).2, tail) := by
  suffices H : ∀ fuel, data.length < fuel →
      whileLen cont n step fuel s dst data =
      .ok ((runPure f s blocks).1, dst ++ (runPure f s blocks).2, tail) from H _ (Nat.lt_succ_self _)
  subst hd
  induction blocks generalizing s dst with
  | nil =>
    intro fuel hf
    cases fuel with
    | zero => omega
    | succ fuel => simp [whileLen, ht, runPure]
  | cons b bs ih =>
    intro fuel hf
    cases fuel with
    | zero => omega
    | succ fuel =>
      have hlen : ((b :: bs).flatten ++ tail).length = n * (bs.length + 1) + tail.length := by
        rw [List.length_append, hb.length_flatten]; rfl
      obtain ⟨h1, h2⟩ := hstep s b hs hb.head
      have htake : ((b :: bs).flatten ++ tail).take n = b := by
        rw [List.flatten_cons, List.append_assoc, List.take_append_of_le_length (by rw [hb.head]; exact Nat.le_refl _)]
        rw [← hb.head, List.take_length]
      have hdrop : ((b :: bs).flatten ++ tail).drop n = bs.flatten ++ tail := by
        rw [List.flatten_cons, List.append_assoc, ← hb.head, List.drop_left]
      rw [whileLen, if_pos (by rw [hlen]; exact hc _ (Nat.succ_pos _)), htake, hdrop, h1]
      simp only
      rw [ih hb.tail h2]
      · simp [runPure, List.append_assoc]
      · rw [List.length_append, hb.tail.length_flatten]
        rw [hlen, Nat.mul_add] at hf
        omega

theorem contGe_blocks {n : Nat} (k t : Nat) (hk : 0 < k) : contGe n (n * k + t) = true := by
  have : n * 1 ≤ n * k := Nat.mul_le_mul_left n hk
  simp [contGe]; omega

theorem contNe_blocks {n : Nat} (hn : 0 < n) (k t : Nat) (hk : 0 < k) : contNe (n * k + t) = true := by
  have : n * 1 ≤ n * k := Nat.mul_le_mul_left n hk
  simp [contNe]; omega

theorem contGt_blocks {n : Nat} (k t : Nat) (hk : 0 < k) (ht : 0 < t) : contGt n (n * k + t) = true := by
  have : n * 1 ≤ n * k := Nat.mul_le_mul_left n hk
  simp [contGt]; omega

/-- Loop with condition `data.len() >= n`. -/
theorem whileGe_eq {σ : Type} {n : Nat} {step : σ → Bytes → Res (σ × Bytes)}
    {f : σ → Bytes → σ × Bytes} (Inv : σ → Prop) {blocks : List Bytes} {tail : Bytes}
    (hstep : ∀ s b, Inv s → b.length = n → step s b = .ok (f s b) ∧ Inv (f s b).1)
    (hb : IsBlocks n blocks) (hn : 0 < n) (ht : tail.length < n)
    {s : σ} (hs : Inv s) (dst data : Bytes) (hd : data = blocks.flatten ++ tail) :
    whileLen (contGe n) n step (data.length + 1) s dst data =
      .ok ((runPure f s blocks).1, dst ++ (runPure f s blocks).2, tail) :=
  whileLen_eq hstep hb hn (fun k hk => contGe_blocks k _ hk) (by simp [contGe]; omega) hs dst data hd

theorem whileGe_nil {σ : Type} {n : Nat} {step : σ → Bytes → Res (σ × Bytes)} (hn : 0 < n) (s : σ) (dst : Bytes) :
    whileLen (contGe n) n step (([] : Bytes).length + 1) s dst [] = .ok (s, dst, []) := by
  simp [whileLen, contGe]; omega

/-- Loop with condition `!data.is_empty()` on whole blocks. -/
theorem whileNe_eq {σ : Type} {n : Nat} {step : σ → Bytes → Res (σ × Bytes)}
    {f : σ → Bytes → σ × Bytes} (Inv : σ → Prop) {blocks : List Bytes}
    (hstep : ∀ s b, Inv s → b.length = n → step s b = .ok (f s b) ∧ Inv (f s b).1)
    (hb : IsBlocks n blocks) (hn : 0 < n)
    {s : σ} (hs : Inv s) (dst data : Bytes) (hd : data = blocks.flatten) :
    whileLen contNe n step (data.length + 1) s dst data =
      .ok ((runPure f s blocks).1, dst ++ (runPure f s blocks).2, []) :=
  whileLen_eq (tail := []) hstep hb hn (fun k hk => contNe_blocks hn k _ hk) (by simp [contNe]) hs dst data (by simpa using hd)

/-- Loop with condition `!data.is_empty()` with a short last block, which is processed like the others. -/
theorem whileNe_tail_eq {σ : Type} {n : Nat} {step : σ → Bytes → Res (σ × Bytes)}
    {f : σ → Bytes → σ × Bytes} (Inv : σ → Prop) {blocks : List Bytes} {tail : Bytes}
    (hstep : ∀ s b, Inv s → b.length ≤ n → step s b = .ok (f s b) ∧ Inv (f s b).1)
    (hb : IsBlocks n blocks) (hn : 0 < n) (ht : tail.length < n)
    {s : σ} (hs : Inv s) (dst data : Bytes) (hd : data = blocks.flatten ++ tail) :
    whileLen contNe n step (data.length + 1) s dst data =
      .ok ((runPure f s (blocks ++ if tail = [] then [] else [tail])).1,
        dst ++ (runPure f s (blocks ++ if tail = [] then [] else [tail])).2, []) := by
  suffices H : ∀ fuel, data.length < fuel →
      whileLen contNe n step fuel s dst data =
      .ok ((runPure f s (blocks ++ if tail = [] then [] else [tail])).1,
        dst ++ (runPure f s (blocks ++ if tail = [] then [] else [tail])).2, []) from H _ (Nat.lt_succ_self _)
  subst hd
  induction blocks generalizing s dst with
  | nil =>
    intro fuel hf
    cases fuel with
    | zero => omega
    | succ fuel =>
      by_cases h0 : tail = []
      · subst h0; simp [whileLen, contNe, runPure]
      · have hp : 0 < tail.length := List.length_pos_iff.2 h0
        obtain ⟨h1, h2⟩ := hstep s tail hs (by omega)
        simp only [List.flatten_nil, List.nil_append] at hf ⊢
        rw [whileLen, if_pos (by simp [contNe, hp]), List.take_of_length_le (by omega), List.drop_eq_nil_of_le (by omega), h1]
        cases fuel with
        | zero => omega
        | succ fuel => simp [whileLen, contNe, runPure, h0]
  | cons b bs ih =>
    intro fuel hf
    cases fuel with
    | zero => omega
    | succ fuel =>
      have hlen : ((b :: bs).flatten ++ tail).length = n * (bs.length + 1) + tail.length := by
        rw [List.length_append, hb.length_flatten]; rfl
      obtain ⟨h1, h2⟩ := hstep s b hs (by rw [hb.head]; exact Nat.le_refl _)
      have htake : ((b :: bs).flatten ++ tail).take n = b := by
        rw [List.flatten_cons, List.append_assoc, List.take_append_of_le_length (by rw [hb.head]; exact Nat.le_refl _)]
        rw [← hb.head, List.take_length]
      have hdrop : ((b :: bs).flatten ++ tail).drop n = bs.flatten ++ tail := by
        rw [List.flatten_cons, List.append_assoc, ← hb.head, List.drop_left]
      rw [whileLen, if_pos (by rw [hlen]; exact contNe_blocks hn _ _ (Nat.succ_pos _)), htake, hdrop, h1]
      simp only
      rw [ih hb.tail h2]
      · simp [runPure, List.append_assoc]
      · rw [List.length_append, hb.tail.length_flatten]
        rw [hlen, Nat.mul_add] at hf
        omega

/-- Loop with condition `data.len() > n`: stops with a last block of 1..n bytes. -/
theorem whileGt_eq {σ : Type} {n : Nat} {step : σ → Bytes → Res (σ × Bytes)}
    {f : σ → Bytes → σ × Bytes} (Inv : σ → Prop) {blocks : List Bytes} {tail : Bytes}
    (hstep : ∀ s b, Inv s → b.length = n → step s b = .ok (f s b) ∧ Inv (f s b).1)
    (hb : IsBlocks n blocks) (hn : 0 < n) (ht : tail.length ≤ n) (h0 : 0 < tail.length)
    {s : σ} (hs : Inv s) (dst data : Bytes) (hd : data = blocks.flatten ++ tail) :
    whileLen (contGt n) n step (data.length + 1) s dst data =
      .ok ((runPure f s blocks).1, dst ++ (runPure f s blocks).2, tail) :=
  whileLen_eq hstep hb hn (fun k hk => contGt_blocks k _ hk h0) (by simp [contGt]; omega) hs dst data hd

/-- The message a client writes. -/
def written (ops : List (Bytes × Bool)) : Bytes := (ops.map Prod.fst).flatten

/-- Invariant rule for stream clients. `R consumed drawn state` is kept by `write` and `draw_off`. -/
theorem feed_inv {σ : Type} {str : Stream σ} (R : Bytes → Bytes → StreamSt σ → Prop)
    (hw : ∀ m o s d, R m o s → ∃ s', str.write s d = .ok s' ∧ R (m ++ d) o s')
    (hd : ∀ m o s, R m o s → R m (o ++ s.pond) { s with pond := [] })
    (ops : List (Bytes × Bool)) {m o : Bytes} {s : StreamSt σ} (h : R m o s) :
    ∃ out s', feed str s ops = .ok (out, s') ∧ R (m ++ written ops) (o ++ out) s' := by
  induction ops generalizing m o s with
  | nil => exact ⟨[], s, rfl, by simpa [written] using h⟩
  | cons op ops ih =>
    obtain ⟨d, b⟩ := op
    obtain ⟨s1, h1, h2⟩ := hw m o s d h
    cases b with
    | false =>
      obtain ⟨out, s', h3, h4⟩ := ih h2
      refine ⟨out, s', ?_, ?_⟩
      · simp [feed, h1, h3, bind, Except.bind]
      · simpa [written, List.append_assoc] using h4
    | true =>
      obtain ⟨out, s', h3, h4⟩ := ih (hd _ _ _ h2)
      refine ⟨s1.pond ++ out, s', ?_, ?_⟩
      · simp [feed, h1, drawOff, h3, bind, Except.bind]
      · simpa [written, List.append_assoc] using h4

theorem runStream_inv {σ : Type} {str : Stream σ} (R : Bytes → Bytes → StreamSt σ → Prop)
    (hw : ∀ m o s d, R m o s → ∃ s', str.write s d = .ok s' ∧ R (m ++ d) o s')
    (hd : ∀ m o s, R m o s → R m (o ++ s.pond) { s with pond := [] })
    (ops : List (Bytes × Bool)) {s : StreamSt σ} (h : R [] [] s) (Q : Bytes → StreamSt σ → Prop)
    (hf : ∀ o s, R (written ops) o s → ∃ out s', str.finish s = .ok (out, s') ∧ Q (o ++ out) s') :
    ∃ out s', runStream str s ops = .ok (out, s') ∧ Q out s' := by
  obtain ⟨out, s1, h1, h2⟩ := feed_inv R hw hd ops h
  obtain ⟨out', s2, h3, h4⟩ := hf _ _ (by simpa using h2)
  exact ⟨out ++ out', s2, by simp [runStream, h1, h3, bind, Except.bind], h4⟩

end Model
end Verif
