import Verif.Model.ECB
import Verif.Proof.Padding

/-! Helper lemmas about ECB -/

namespace Verif.Model

open Spec

/-- Invariant of a stream that keeps less than one block pending: everything written so far is a sequence of blocks that has been processed
by `f` from `s0`, followed by the pending bytes. -/
def RGe {σ : Type} (f : σ → Bytes → σ × Bytes) (n : Nat) (s0 : σ) (m o : Bytes) (s : StreamSt σ) : Prop :=
  ∃ blocks, IsBlocks n blocks ∧ m = blocks.flatten ++ s.data ∧ s.data.length < n ∧
    s.st = (runPure f s0 blocks).1 ∧ o ++ s.pond = (runPure f s0 blocks).2

theorem RGe.draw {σ : Type} {f : σ → Bytes → σ × Bytes} {n : Nat} {s0 : σ} {m o : Bytes} {s : StreamSt σ}
    (h : RGe f n s0 m o s) : RGe f n s0 m (o ++ s.pond) { s with pond := [] } := by
  obtain ⟨b, h1, h2, h3, h4, h5⟩ := h
  exact ⟨b, h1, h2, h3, h4, by simpa using h5⟩

theorem RGe.init {σ : Type} {f : σ → Bytes → σ × Bytes} {n : Nat} (hn : 0 < n) {s0 : σ} :
    RGe f n s0 [] [] { data := [], pond := [], st := s0 } :=
  ⟨[], .nil, by simp, by simpa using hn, rfl, rfl⟩

/-- Invariant of a decrypting stream that always keeps the last block pending. -/
def RGt {σ : Type} (f : σ → Bytes → σ × Bytes) (n : Nat) (s0 : σ) (m o : Bytes) (s : StreamSt σ) : Prop :=
  ∃ blocks, IsBlocks n blocks ∧ m = blocks.flatten ++ s.data ∧ s.data.length ≤ n ∧ (m ≠ [] → 0 < s.data.length) ∧
    s.st = (runPure f s0 blocks).1 ∧ o ++ s.pond = (runPure f s0 blocks).2

theorem RGt.draw {σ : Type} {f : σ → Bytes → σ × Bytes} {n : Nat} {s0 : σ} {m o : Bytes} {s : StreamSt σ}
    (h : RGt f n s0 m o s) : RGt f n s0 m (o ++ s.pond) { s with pond := [] } := by
  obtain ⟨b, h1, h2, h3, h4, h5, h6⟩ := h
  exact ⟨b, h1, h2, h3, h4, h5, by simpa using h6⟩

theorem RGt.init {σ : Type} {f : σ → Bytes → σ × Bytes} {n : Nat} {s0 : σ} :
    RGt f n s0 [] [] { data := [], pond := [], st := s0 } :=
  ⟨[], .nil, by simp, by simp, by simp, rfl, rfl⟩

/-- Split a non-empty message into blocks and a last block of 1..n bytes. -/
theorem exists_blocks_last {n : Nat} (hn : 0 < n) (m : Bytes) (hm : m ≠ []) :
    ∃ bs t, IsBlocks n bs ∧ t.length ≤ n ∧ 0 < t.length ∧ m = bs.flatten ++ t := by
  induction h : m.length using Nat.strongRecOn generalizing m with
  | _ k ih =>
    have h0 : 0 < m.length := List.length_pos_iff.2 hm
    by_cases hk : m.length ≤ n
    · exact ⟨[], m, .nil, hk, h0, by simp⟩
    · obtain ⟨bs, t, h1, h2, h3, h4⟩ := ih (m.drop n).length (by rw [List.length_drop]; omega) (m.drop n)
        (by rw [Ne, List.drop_eq_nil_iff]; omega) rfl
      refine ⟨m.take n :: bs, t, .cons (by rw [List.length_take]; omega) h1, h2, h3, ?_⟩
      rw [List.flatten_cons, List.append_assoc, ← h4, List.take_append_drop]

theorem flatten_inj {n : Nat} (hn : 0 < n) {a b : List Bytes} (ha : IsBlocks n a) (hb : IsBlocks n b)
    (h : a.flatten = b.flatten) : a = b := by
  have h0 : ([] : Bytes).length < n := hn
  have e := congrArg (fun l => blocksOf n (l ++ [])) h
  simp only [blocksOf_flatten hn ha h0, blocksOf_flatten hn hb h0] at e
  exact e

/-- If a decrypting stream was fed whole blocks, the pending data is the last block. -/
theorem snoc_inj {n : Nat} (hn : 0 < n) {cb xb : List Bytes} {d l : Bytes} (hc : IsBlocks n cb) (hx : IsBlocks n xb)
    (hd : d.length ≤ n) (hd0 : 0 < d.length) (hl : l.length = n) (h : cb.flatten ++ d = xb.flatten ++ l) :
    cb = xb ∧ d = l := by
  have hl2 := congrArg List.length h
  rw [List.length_append, List.length_append, hc.length_flatten, hx.length_flatten, hl] at hl2
  have hb1 : d.length = n := by
    have e1 : (n * cb.length + d.length) % n = 0 := by
      rw [hl2, Nat.mul_add_mod]; exact Nat.mod_self _
    rw [Nat.mul_add_mod] at e1
    rcases Nat.lt_or_eq_of_le hd with hlt | heq
    · rw [Nat.mod_eq_of_lt hlt] at e1; omega
    · exact heq
  obtain ⟨h1, h2⟩ := List.append_inj' h (by rw [hb1, hl])
  exact ⟨flatten_inj hn hc hx h1, h2⟩

namespace ECB

variable {c : BlockCipher} {E D : Bytes → Bytes}

/-- Pure versions of the loop bodies. -/
def encF (E : Bytes → Bytes) (_ : Unit) (b : Bytes) : Unit × Bytes := ((), E b)

theorem encStep_ok (h : Lawful c E D) (s : Unit) (b : Bytes) (_ : True) (hb : b.length = c.bs) :
    encStep c s b = .ok (encF E s b) ∧ True := by
  simp [encStep, encF, h.enc b hb, bind, Except.bind]

theorem decStep_ok (h : Lawful c E D) (s : Unit) (b : Bytes) (_ : True) (hb : b.length = c.bs) :
    decStep c s b = .ok (encF D s b) ∧ True := by
  simp [decStep, encF, h.dec b hb, bind, Except.bind]

theorem runPure_encF (s : Unit) (bs : List Bytes) : runPure (encF E) s bs = ((), (ecb E bs).flatten) := by
  induction bs generalizing s with
  | nil => rfl
  | cons b bs ih => simp [runPure, ih, ecb, encF]

theorem encrypt_eq (h : Lawful c E D) {p : Padding} {blocks : List Bytes} {t : Bytes} (hb : IsBlocks c.bs blocks)
    (ht : t.length < c.bs) {pb : List Bytes} (hpb : IsBlocks c.bs pb) (hp : p.padding t = pb.flatten) :
    encrypt c p (blocks.flatten ++ t) = .ok (ecb E (blocks ++ pb)).flatten := by
  unfold encrypt
  rw [whileGe_eq (fun _ => True) (encStep_ok h) hb h.pos ht trivial [] _ rfl]
  simp only [bind, Except.bind, hp]
  rw [whileNe_eq (fun _ => True) (encStep_ok h) hpb h.pos trivial _ _ rfl]
  simp [runPure_encF, ecb]

theorem decrypt_eq (h : Lawful c E D) {p : Padding} {blocks : List Bytes} (hb : IsBlocks c.bs blocks) :
    decrypt c p blocks.flatten = p.unpad (ecb D blocks).flatten := by
  unfold decrypt
  rw [if_neg (by rw [hb.length_flatten, Nat.mul_mod_right]; simp)]
  rw [whileGe_eq (tail := []) (fun _ => True) (decStep_ok h) hb h.pos h.pos trivial [] _ (by simp)]
  simp [bind, Except.bind, runPure_encF]

theorem ecb_isBlocks (h : Lawful c E D) {blocks : List Bytes} (hb : IsBlocks c.bs blocks) : IsBlocks c.bs (ecb E blocks) := by
  intro x hx
  obtain ⟨b, hb1, rfl⟩ := List.mem_map.1 hx
  exact h.lenE _ (hb _ hb1)

theorem ecb_inv (h : Lawful c E D) {blocks : List Bytes} (hb : IsBlocks c.bs blocks) : ecb D (ecb E blocks) = blocks := by
  induction blocks with
  | nil => rfl
  | cons b bs ih => simp only [ecb, List.map_cons] at *; rw [h.DE _ hb.head, ih hb.tail]

theorem encWrite_inv (h : Lawful c E D) {m o : Bytes} {s : StreamSt Unit} (d : Bytes)
    (hR : RGe (encF E) c.bs () m o s) : ∃ s', encWrite c s d = .ok s' ∧ RGe (encF E) c.bs () (m ++ d) o s' := by
  obtain ⟨blocks, h1, h2, h3, h4, h5⟩ := hR
  unfold encWrite
  by_cases hd : d = []
  · subst hd; exact ⟨s, by simp, blocks, h1, by simpa using h2, h3, h4, h5⟩
  rw [if_neg (by simpa using hd), if_neg (by omega)]
  by_cases hlt : s.data.length + d.length < c.bs
  · have hmin : min (c.bs - s.data.length) d.length = d.length := by omega
    simp only [hmin, List.take_length, List.drop_length]
    rw [if_neg (by simp; omega)]
    simp only [bind, Except.bind]
    rw [whileGe_nil h.pos]
    simp only [List.append_nil]
    refine ⟨_, rfl, blocks, h1, by simp [h2], by simpa using hlt, rfl, by simpa using h5⟩
  · have hmin : min (c.bs - s.data.length) d.length = c.bs - s.data.length := by omega
    simp only [hmin]
    have hl : (s.data ++ d.take (c.bs - s.data.length)).length = c.bs := by simp; omega
    rw [if_pos hl]
    simp only [bind, Except.bind, h.enc _ hl]
    obtain ⟨bs', t', g1, g2, g3⟩ := exists_blocks h.pos (d.drop (c.bs - s.data.length))
    rw [whileGe_eq (fun _ => True) (encStep_ok h) g1 h.pos g2 trivial _ _ g3]
    simp only [List.nil_append]
    refine ⟨_, rfl, blocks ++ (s.data ++ d.take (c.bs - s.data.length)) :: bs', h1.append (.cons hl g1), ?_, g2, rfl, ?_⟩
    · simp only [List.flatten_append, List.flatten_cons, List.append_assoc, h2]
      rw [← g3, List.take_append_drop]
    · rw [runPure_append]
      simp only [runPure, ← h5, List.append_assoc, encF]

theorem decWrite_inv (h : Lawful c E D) {m o : Bytes} {s : StreamSt Unit} (d : Bytes)
    (hR : RGt (encF D) c.bs () m o s) : ∃ s', decWrite c s d = .ok s' ∧ RGt (encF D) c.bs () (m ++ d) o s' := by
  obtain ⟨blocks, h1, h2, h3, h3', h4, h5⟩ := hR
  unfold decWrite
  by_cases hd : d = []
  · subst hd; exact ⟨s, by simp, blocks, h1, by simpa using h2, h3, by simpa using h3', h4, h5⟩
  rw [if_neg (by simpa using hd)]
  obtain ⟨bs', t', g1, g2, g2', g3⟩ := exists_blocks_last h.pos (s.data ++ d) (by simp [hd])
  simp only [bind, Except.bind]
  rw [whileGt_eq (fun _ => True) (decStep_ok h) g1 h.pos g2 g2' trivial _ _ g3]
  refine ⟨_, rfl, blocks ++ bs', h1.append g1, ?_, g2, fun _ => g2', rfl, ?_⟩
  · simp only [List.flatten_append, List.append_assoc, h2, g3]
  · rw [runPure_append]; simp only [← h5, List.append_assoc]

end ECB
end Verif.Model
