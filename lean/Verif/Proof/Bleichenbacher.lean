import Verif.Spec.Bleichenbacher
import Verif.Proof.Accept
import Verif.Proof.Manger

/-! Helper lemmas for C102: the intervals of the attack never lose the number. -/

namespace Verif.Spec.Bleichenbacher
open Manger (ceil question)

/-- One of the intervals contains the number. -/
def Holds (M : List (Nat × Nat)) (m : Nat) : Prop := ∃ ab ∈ M, ab.1 ≤ m ∧ m ≤ ab.2

theorem ceil_le {a b m : Nat} (hb : 0 < b) (h : a ≤ m * b) : ceil a b ≤ m := by
  unfold ceil
  rw [Nat.div_le_iff_le_mul_add_pred hb, Nat.mul_comm]
  omega

theorem cut_holds {n B s a b m : Nat} (hn : 0 < n) (hB : 0 < B) (ha : a ≤ m) (hb : m ≤ b) (h2 : 2 * B ≤ s * m % n) (h3 : s * m % n < 3 * B) :
    Holds (cut n B s a b) m := by
  have hs : 0 < s := by
    rcases Nat.eq_zero_or_pos s with rfl | h
    · simp at h2; omega
    · exact h
  have hdm := Nat.div_add_mod (s * m) n
  obtain ⟨r, hr⟩ : ∃ r, r = s * m / n := ⟨_, rfl⟩
  rw [← hr] at hdm
  have e1 : s * m = m * s := Nat.mul_comm _ _
  have e2 : n * r = r * n := Nat.mul_comm _ _
  have l1 : a * s ≤ m * s := Nat.mul_le_mul_right _ ha
  have l2 : m * s ≤ b * s := Nat.mul_le_mul_right _ hb
  have hr0 : (a * s - (3 * B - 1)) / n ≤ r := by
    have : a * s - (3 * B - 1) ≤ r * n := by omega
    calc _ ≤ r * n / n := Nat.div_le_div_right this
      _ = r := Nat.mul_div_cancel _ hn
  have hr1 : r ≤ b * s / n := by
    rw [hr, e1]; exact Nat.div_le_div_right l2
  have hlo : max a (ceil (2 * B + r * n) s) ≤ m := Nat.max_le.2 ⟨ha, ceil_le hs (by omega)⟩
  have hhi : m ≤ min b ((3 * B - 1 + r * n) / s) := Nat.le_min.2 ⟨hb, (Nat.le_div_iff_mul_le hs).2 (by omega)⟩
  refine ⟨(max a (ceil (2 * B + r * n) s), min b ((3 * B - 1 + r * n) / s)), ?_, hlo, hhi⟩
  unfold cut
  rw [List.mem_filterMap]
  refine ⟨r, ?_, ?_⟩
  · rw [List.mem_range'_1]; omega
  · show (if _ then _ else _) = _
    rw [if_pos (Nat.le_trans hlo hhi)]

theorem cutAll_holds {n B s m : Nat} {M : List (Nat × Nat)} (hn : 0 < n) (hB : 0 < B) (h : Holds M m) (h2 : 2 * B ≤ s * m % n) (h3 : s * m % n < 3 * B) :
    Holds (cutAll n B s M) m := by
  obtain ⟨ab, hM, ha, hb⟩ := h
  obtain ⟨x, hx, h'⟩ := cut_holds hn hB ha hb h2 h3
  exact ⟨x, List.mem_flatMap.2 ⟨ab, hM, hx⟩, h'⟩

/-- However long it runs, the attack does not lose the number. -/
theorem loop_holds {k n e c m : Nat} (hn : 0 < n) {o : Bytes → Bool}
    (ho : ∀ s, o (question k n e c s) = true → 2 * 256 ^ (k - 2) ≤ s * m % n ∧ s * m % n < 3 * 256 ^ (k - 2)) (t : Nat) :
    ∀ (M : List (Nat × Nat)) (sr : Nat × Nat), Holds M m → Holds ((loop k n e c t M sr).run o) m := by
  induction t with
  | zero => intro M sr h; exact h
  | succ t ih =>
    rintro M ⟨s, r⟩ h
    unfold loop
    split
    · exact h
    · rw [Ask.run]
      cases hq : o (question k n e c s) with
      | true =>
        obtain ⟨h2, h3⟩ := ho s hq
        exact ih _ _ (cutAll_holds hn (Nat.pow_pos (by omega)) h h2 h3)
      | false => exact ih _ _ h

theorem loop_asked {k n e c : Nat} {o : Bytes → Bool} (t : Nat) :
    ∀ (M : List (Nat × Nat)) (sr : Nat × Nat), ((loop k n e c t M sr).asked o).length ≤ t := by
  induction t with
  | zero => intro M sr; exact Nat.le_refl _
  | succ t ih =>
    rintro M ⟨s, r⟩
    unfold loop
    split
    · exact Nat.zero_le _
    · rw [Ask.asked, List.length_cons]
      refine Nat.succ_le_succ ?_
      split <;> exact ih _ _

/-- The attack with the answers given by a predicate on factors. -/
def sim (k n : Nat) (P : Nat → Bool) : Nat → List (Nat × Nat) → Nat × Nat → List (Nat × Nat)
  | 0, M, _ => M
  | t + 1, M, (s, r) =>
    match solved M with
    | true => M
    | false =>
      match P s with
      | true => let M' := cutAll n (256 ^ (k - 2)) s M; sim k n P t M' (plan n (256 ^ (k - 2)) s M')
      | false => sim k n P t M (skip n (256 ^ (k - 2)) s r M)

theorem run_loop {k n e c : Nat} {o : Bytes → Bool} {P : Nat → Bool} (h : ∀ s, o (question k n e c s) = P s) (t : Nat) :
    ∀ (M : List (Nat × Nat)) (sr : Nat × Nat), (loop k n e c t M sr).run o = sim k n P t M sr := by
  induction t with
  | zero => intro M sr; rfl
  | succ t ih =>
    rintro M ⟨s, r⟩
    unfold loop sim
    cases solved M with
    | true => rfl
    | false =>
      rw [if_neg (by simp), Ask.run, h]
      cases P s with
      | true => exact ih _ _
      | false => exact ih _ _

/-! The same with arguments computed first, so that the kernel can run it. -/

def force {α : Type} (n : Nat) (f : Nat → α) : α := Nat.rec (f 0) (fun n _ => f (n + 1)) n

theorem force_eq {α : Type} (n : Nat) (f : Nat → α) : force n f = f n := by cases n <;> rfl

def forceList {α : Type} : List (Nat × Nat) → (List (Nat × Nat) → α) → α
  | [], f => f []
  | (a, b) :: M, f => force a fun a' => force b fun b' => forceList M fun M' => f ((a', b') :: M')

theorem forceList_eq {α : Type} (M : List (Nat × Nat)) (f : List (Nat × Nat) → α) : forceList M f = f M := by
  induction M generalizing f with
  | nil => rfl
  | cons ab M ih =>
    obtain ⟨a, b⟩ := ab
    rw [forceList, force_eq, force_eq, ih]

def forcePair {α : Type} : Nat × Nat → (Nat → Nat → α) → α
  | (a, b), f => force a fun a' => force b fun b' => f a' b'

theorem forcePair_eq {α : Type} (x : Nat × Nat) (f : Nat → Nat → α) : forcePair x f = f x.1 x.2 := by
  obtain ⟨a, b⟩ := x; rw [forcePair, force_eq, force_eq]

/-- One question. -/
def step (n B : Nat) (P : Nat → Bool) : List (Nat × Nat) × Nat × Nat → List (Nat × Nat) × Nat × Nat
  | (M, s, r) =>
    match solved M with
    | true => (M, s, r)
    | false =>
      match P s with
      | true => forceList (cutAll n B s M) fun M' => forcePair (plan n B s M') fun s' r' => (M', s', r')
      | false => forcePair (skip n B s r M) fun s' r' => (M, s', r')

/-- `2 ^ d` questions. -/
def fast (n B : Nat) (P : Nat → Bool) : Nat → List (Nat × Nat) × Nat × Nat → List (Nat × Nat) × Nat × Nat
  | 0, x => step n B P x
  | d + 1, x => match fast n B P d x with
    | (M, s, r) => fast n B P d (M, s, r)

theorem sim_step {k n : Nat} {P P' : Nat → Bool} (h : ∀ s, P s = P' s) (t : Nat) :
    ∀ x : List (Nat × Nat) × Nat × Nat, sim k n P t x.1 x.2 = ((step n (256 ^ (k - 2)) P')^[t] x).1 := by
  induction t with
  | zero => intro x; rfl
  | succ t ih =>
    rintro ⟨M, s, r⟩
    rw [Function.iterate_succ_apply, ← ih]
    conv_lhs => unfold sim
    unfold step
    dsimp only
    cases hs : solved M with
    | true =>
      cases t with
      | zero => rfl
      | succ t => conv_rhs => unfold sim
                  dsimp only; rw [hs]
    | false =>
      rw [h]
      cases P' s with
      | true => simp only [forceList_eq, forcePair_eq]
      | false => simp only [forcePair_eq]

theorem fast_eq (n B : Nat) (P : Nat → Bool) (d : Nat) : ∀ x, fast n B P d x = (step n B P)^[2 ^ d] x := by
  induction d with
  | zero => intro x; rfl
  | succ d ih =>
    intro x
    rw [fast]
    show fast n B P d (fast n B P d x) = _
    rw [ih, ih, Nat.pow_succ, Nat.mul_two, Function.iterate_add_apply]

/-! ## A test for well-formed encodings that the kernel can run -/

/-- Reading the last `j` bytes of `x` from the front, the first zero comes after at least `c` others. -/
def zeroAfter (x : Nat) : Nat → Nat → Bool
  | 0, _ => false
  | j + 1, c => match Nat.beq (x / 256 ^ j % 256) 0 with
    | true => Nat.beq c 0
    | false => zeroAfter x j (c - 1)

def wfTest (k x : Nat) : Bool :=
  match Nat.beq (x / 256 ^ (k - 2)) 2 with
  | true => zeroAfter x (k - 2) 8
  | false => false

theorem toBE_succ (j x : Nat) : toBE (j + 1) x = BitVec.ofNat 8 (x / 256 ^ j) :: toBE j x := by
  unfold toBE
  rw [List.range_succ_eq_map, List.map_cons, List.map_map]
  congr 1
  apply List.map_congr_left
  intro i _
  show BitVec.ofNat 8 (x / 256 ^ (j + 1 - 1 - (i + 1))) = _
  congr 3; omega

theorem zeroAfter_iff (x j c : Nat) : zeroAfter x j c = true ↔ ∃ ps m : Bytes, (∀ b ∈ ps, b ≠ 0#8) ∧ c ≤ ps.length ∧ toBE j x = ps ++ 0x00#8 :: m := by
  induction j generalizing c with
  | zero =>
    refine ⟨fun h => Bool.noConfusion h, ?_⟩
    rintro ⟨ps, m, -, -, h⟩
    have := congrArg List.length h
    simp at this
  | succ j ih =>
    have h0 : BitVec.ofNat 8 (x / 256 ^ j) = 0#8 ↔ x / 256 ^ j % 256 = 0 := by
      constructor
      · intro h; have := congrArg BitVec.toNat h; simpa using this
      · intro h; apply BitVec.eq_of_toNat_eq; simpa using h
    rw [zeroAfter, toBE_succ]
    split
    · next hb =>
      have hz := h0.2 (Nat.eq_of_beq_eq_true hb)
      rw [hz]
      constructor
      · intro h
        exact ⟨[], toBE j x, by simp, by rw [Nat.eq_of_beq_eq_true h]; simp, rfl⟩
      · rintro ⟨ps, m, h1, h2, h3⟩
        cases ps with
        | nil => simp at h2; rw [h2]; rfl
        | cons y ys =>
          injection h3 with e _
          exact absurd e.symm (h1 y (List.mem_cons_self ..))
    · next hb =>
      have hz : ¬ BitVec.ofNat 8 (x / 256 ^ j) = 0#8 := fun h => Nat.ne_of_beq_eq_false hb (h0.1 h)
      rw [ih]
      constructor
      · rintro ⟨ps, m, h1, h2, h3⟩
        refine ⟨BitVec.ofNat 8 (x / 256 ^ j) :: ps, m, ?_, by rw [List.length_cons]; omega, by rw [h3]; rfl⟩
        intro b hb'
        rcases List.mem_cons.1 hb' with rfl | hb'
        · exact hz
        · exact h1 b hb'
      · rintro ⟨ps, m, h1, h2, h3⟩
        cases ps with
        | nil => injection h3 with e _; exact absurd e hz
        | cons y ys =>
          injection h3 with _ e
          exact ⟨ys, m, fun b hb' => h1 b (List.mem_cons_of_mem _ hb'), by rw [List.length_cons] at h2; omega, e⟩

theorem wfTest_iff {k x : Nat} (hk : 2 ≤ k) : wfTest k x = true ↔ PKCS1.Wf k x := by
  have hpos : 0 < 256 ^ (k - 2) := Nat.pow_pos (by omega)
  have hsum := Nat.div_add_mod x (256 ^ (k - 2))
  have heme : ∀ ps m : Bytes, PKCS1.eme ps m = [0x00#8, 0x02#8] ++ (ps ++ 0x00#8 :: m) := by intro ps m; unfold PKCS1.eme; simp
  have e2 : beNat [0x00#8, 0x02#8] = 2 := rfl
  unfold wfTest
  constructor
  · intro h
    split at h
    · next hb =>
      rw [Nat.eq_of_beq_eq_true hb] at hsum
      obtain ⟨ps, m, h1, h2, h3⟩ := (zeroAfter_iff _ _ _).1 h
      have hl := congrArg List.length h3
      rw [Spec.length_toBE] at hl
      refine ⟨ps, m, ⟨h2, h1⟩, by rw [heme, List.length_append, ← hl]; show 2 + _ = _; omega, ?_⟩
      rw [heme, Model.RSA.beNat_append, ← hl, ← h3, Spec.beNat_toBE, e2]
      omega
    · cases h
  · intro h
    obtain ⟨h2, h3⟩ := h.range hk
    have e : x / 256 ^ (k - 2) = 2 := by
      apply Nat.div_eq_of_lt_le <;> omega
    rw [e]
    show zeroAfter x (k - 2) 8 = true
    obtain ⟨ps, m, hp, hl, rfl⟩ := h
    rw [zeroAfter_iff]
    refine ⟨ps, m, hp.2, hp.1, ?_⟩
    have hl2 : (ps ++ 0x00#8 :: m).length = k - 2 := by
      rw [heme, List.length_append] at hl
      have : ([0x00#8, 0x02#8] : Bytes).length = 2 := rfl
      omega
    have hlt := beNat_lt (ps ++ 0x00#8 :: m)
    rw [hl2] at hlt
    rw [← toBE_mod, heme, Model.RSA.beNat_append, hl2, Nat.mul_add_mod_self_right, Nat.mod_eq_of_lt hlt, ← hl2, toBE_beNat]

end Verif.Spec.Bleichenbacher
