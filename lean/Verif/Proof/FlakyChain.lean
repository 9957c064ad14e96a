import Verif.Spec.FlakyChain
import Verif.Proof.FlakyLink

/-! Helper lemmas: every history of CBC encryption over a cipher that may fail -/

namespace Verif.Model.Flaky
open Verif.Spec
open Verif.Spec.Flaky (Op first Chain lastOf finBlocks cbcRun)

variable {c : BlockCipher} {E D : Bytes → Bytes} {fail : Sched}

/-- What a call that fails makes of the contents of its destination. -/
def leaves (fail : Sched) (t : Nat) (d : Bytes) : Bytes := spoiled fail (fun g s => g s) t d

theorem lastOf_cons (link o : Bytes) (out : List Bytes) : lastOf link (o :: out) = lastOf o out := by
  cases out <;> simp [lastOf, List.getLast?_cons]

theorem runPure_encF_fst (link : Bytes) (bs : List Bytes) : (runPure (CBC.encF E) link bs).1 = lastOf link (Spec.cbcEnc E link bs) := by
  induction bs generalizing link with
  | nil => rfl
  | cons b bs ih =>
    rw [runPure]
    simp only [Spec.cbcEnc, lastOf_cons]
    rw [ih]
    rfl

theorem runPure_finF_snd (iv link : Bytes) (bs : List Bytes) : (runPure (finF E iv) link bs).2 = (finBlocks E iv link bs).flatten := by
  cases bs with
  | nil => rfl
  | cons b bs => rw [runPure_finF]; rfl

theorem runPure_finF_fst (iv link : Bytes) (bs : List Bytes) : (runPure (finF E iv) link bs).1 = if bs.length = 0 then link else iv := by
  induction bs generalizing link with
  | nil => rfl
  | cons b bs ih =>
    rw [runPure]
    simp only
    rw [ih]
    simp [finF]

theorem sEnc_step (h : Lawful c E D) (s b : Bytes) (hs : s.length = c.bs) (hb : b.length = c.bs) :
    CBC.sEncStep c s b = .ok (CBC.encF E s b) ∧ (CBC.encF E s b).1.length = c.bs := CBC.sEncStep_ok h s b hs hb

theorem fin_step (h : Lawful c E D) {iv : Bytes} (hiv : iv.length = c.bs) (v b : Bytes) (hv : v.length = c.bs) (hb : b.length = c.bs) :
    CBC.finStep c iv v b = .ok (finF E iv v b) ∧ (finF E iv v b).1.length = c.bs := by
  refine ⟨?_, hiv⟩
  rw [CBC.finStep, h.enc _ (by rw [length_xorBytes, hv, hb, Nat.min_self])]
  rfl

/-- The stream of the model and what the specification remembers. -/
def ofChain (x : Chain) : St Bytes := ⟨x.pend, x.ready, x.link, x.t⟩

/-- The state that a `write` leaves. -/
def chainWrite (E : Bytes → Bytes) (fail : Sched) (n : Nat) (x : Chain) (d : Bytes) : Res Unit × Chain :=
  let bs := blocksOf n (x.pend ++ d)
  if d = [] then (.ok (), x)
  else if n < x.pend.length then (.error .panic, x)
  else match first (bad fail) x.t bs.length with
    | none => (.ok (), ⟨(x.pend ++ d).drop (n * bs.length), x.ready ++ (Spec.cbcEnc E x.link bs).flatten, lastOf x.link (Spec.cbcEnc E x.link bs), x.t + bs.length⟩)
    | some k => (.error (.err .innerErr), ⟨if k = 0 then (x.pend ++ d).take n else [], x.ready ++ (Spec.cbcEnc E x.link (bs.take k)).flatten,
        leaves fail (x.t + k) (lastOf x.link (Spec.cbcEnc E x.link (bs.take k))), x.t + k + 1⟩)

theorem encRest_eq (h : Lawful c E D) {s : St Bytes} (hs : s.st.length = c.bs) (d : Bytes) :
    encRest c.bs (cbcEncBody c fail) s d =
      match first (bad fail) s.calls (blocksOf c.bs d).length with
      | none => (.ok (), ⟨s.data ++ d.drop (c.bs * (blocksOf c.bs d).length), s.pond ++ (Spec.cbcEnc E s.st (blocksOf c.bs d)).flatten,
          lastOf s.st (Spec.cbcEnc E s.st (blocksOf c.bs d)), s.calls + (blocksOf c.bs d).length⟩)
      | some k => (.error (.err .innerErr), ⟨s.data, s.pond ++ (Spec.cbcEnc E s.st ((blocksOf c.bs d).take k)).flatten,
          leaves fail (s.calls + k) (lastOf s.st (Spec.cbcEnc E s.st ((blocksOf c.bs d).take k))), s.calls + k + 1⟩) := by
  obtain ⟨bs, tl, h1, h2, rfl⟩ := exists_blocks h.pos d
  unfold encRest cbcEncBody
  rw [loop_eq (tail := tl) (Inv := fun v => v.length = c.bs) (sEnc_step h) h1 h.pos (fun k hk => contGe_blocks k _ hk) (by simp [contGe]; omega) hs _ _ _ rfl _
    (Nat.lt_succ_self _), blocksOf_flatten h.pos h1 h2, (take_blocks h1 rfl tl).2]
  cases first (bad fail) s.calls bs.length with
  | none => simp only [CBC.runPure_encF_snd, runPure_encF_fst]
  | some k => simp only [CBC.runPure_encF_snd, runPure_encF_fst]; rfl

theorem encWrite_chain (h : Lawful c E D) {x : Chain} (hx : x.link.length = c.bs) (d : Bytes) :
    encWrite c.bs (cbcEncBody c fail) (ofChain x) d = ((chainWrite E fail c.bs x d).1, ofChain (chainWrite E fail c.bs x d).2) := by
  obtain ⟨pend, ready, link, t⟩ := x
  show encWrite c.bs (cbcEncBody c fail) ⟨pend, ready, link, t⟩ d = _
  unfold encWrite chainWrite
  simp only at hx ⊢
  by_cases hd : d = []
  · subst hd; simp [ofChain]
  rw [if_neg (by simpa using hd)]
  rw [if_neg hd]
  by_cases hl : c.bs < pend.length
  · rw [if_pos hl, if_pos hl]; rfl
  rw [if_neg hl, if_neg hl]
  have hd0 : 0 < d.length := List.length_pos_iff.2 hd
  by_cases hf : (pend ++ d.take (min (c.bs - pend.length) d.length)).length = c.bs
  · rw [if_pos hf]
    have hsplit : pend ++ d = (pend ++ d.take (min (c.bs - pend.length) d.length)) ++ d.drop (min (c.bs - pend.length) d.length) := by
      rw [List.append_assoc, List.take_append_drop]
    generalize hsd : pend ++ d.take (min (c.bs - pend.length) d.length) = sd at hf hsplit
    generalize d.drop (min (c.bs - pend.length) d.length) = r at hsplit
    rw [hsplit, blocksOf_cons h.pos hf, List.length_cons, show (sd ++ r).take c.bs = sd by rw [← hf, List.take_left],
      show c.bs * ((blocksOf c.bs r).length + 1) = sd.length + c.bs * (blocksOf c.bs r).length by rw [hf, Nat.mul_add]; omega, List.drop_append,
      List.drop_eq_nil_of_le (Nat.le_add_right _ _), List.nil_append, Nat.add_sub_cancel_left]
    cases hfl : fail t with
    | some g => simp [cbcEncBody, body, hfl, first, bad, Spec.cbcEnc, lastOf, leaves, spoiled, ofChain]
    | none =>
      obtain ⟨e1, e2⟩ := sEnc_step h link sd hx hf
      have hb : cbcEncBody c fail t link sd = (none, E (xorBytes sd link), E (xorBytes sd link)) := by
        simp only [cbcEncBody, body, hfl, e1]; rfl
      have hf0 : first (bad fail) t ((blocksOf c.bs r).length + 1) = (first (bad fail) (t + 1) (blocksOf c.bs r).length).map (· + 1) := by
        simp [first, bad, hfl]
      rw [hb, hf0]
      simp only
      rw [encRest_eq h e2]
      simp only
      cases first (bad fail) (t + 1) (blocksOf c.bs r).length with
      | none =>
        simp only [Option.map_none, ofChain, Spec.cbcEnc, lastOf_cons, List.flatten_cons, List.append_assoc, List.nil_append]
        rw [show t + 1 + (blocksOf c.bs r).length = t + ((blocksOf c.bs r).length + 1) by omega]
      | some k =>
        simp only [Option.map_some, ofChain, Spec.cbcEnc, lastOf_cons, List.flatten_cons, List.append_assoc, List.take_succ_cons, if_neg (Nat.succ_ne_zero k)]
        rw [show t + 1 + k = t + (k + 1) by omega]
  · rw [if_neg hf]
    have hlen : d.length < c.bs - pend.length := by
      rw [List.length_append, List.length_take] at hf
      omega
    rw [Nat.min_eq_right (by omega), List.take_length, List.drop_length, encRest_eq h hx, blocksOf_short (m := []) (by simpa using h.pos),
      blocksOf_short (m := pend ++ d) (by rw [List.length_append]; omega)]
    simp [first, Spec.cbcEnc, lastOf, ofChain]

/-- The state that a `finish` leaves. -/
def chainFinish (E : Bytes → Bytes) (fail : Sched) (n : Nat) (iv : Bytes) (pad : Bytes → Bytes) (x : Chain) : Res Bytes × Chain :=
  let bs := blocksOf n (pad x.pend)
  match first (bad fail) x.t bs.length with
  | none => (.ok (x.ready ++ (finBlocks E iv x.link bs).flatten), ⟨[], [], iv, x.t + bs.length⟩)
  | some k => (.error (.err .innerErr), ⟨pad x.pend, x.ready ++ (finBlocks E iv x.link (bs.take k)).flatten,
      leaves fail (x.t + k) (if k = 0 then x.link else iv), x.t + k + 1⟩)

theorem encFinish_chain (h : Lawful c E D) {iv : Bytes} (hiv : iv.length = c.bs) {p : Padding} (hp : ∀ d, ∃ pb, IsBlocks c.bs pb ∧ pb ≠ [] ∧ p.padding d = pb.flatten)
    {x : Chain} (hx : x.link.length = c.bs) :
    encFinish c.bs (cbcFinBody c fail iv) p (ofChain x) =
      ((chainFinish E fail c.bs iv p.padding x).1, ofChain (chainFinish E fail c.bs iv p.padding x).2) := by
  obtain ⟨pb, g1, g0, g2⟩ := hp x.pend
  unfold encFinish chainFinish cbcFinBody
  simp only [ofChain]
  rw [loop_eq (tail := []) (cont := contNe) (Inv := fun v => v.length = c.bs) (fin_step h hiv) g1 h.pos (fun k hk => contNe_blocks h.pos k _ hk) (by simp [contNe]) hx _ _ _
    (by simp [g2]) _ (Nat.lt_succ_self _), g2, blocksOf_flatten' h.pos g1]
  cases hft : first (bad fail) x.t pb.length with
  | none =>
    simp only [runPure_finF_snd, runPure_finF_fst, if_neg (show pb.length ≠ 0 by simpa using g0)]
  | some k =>
    have hk := first_lt hft
    simp only [runPure_finF_snd, runPure_finF_fst, List.length_take, Nat.min_eq_left (Nat.le_of_lt hk)]
    rfl

theorem leaves_length (hfail : ∀ t g, fail t = some g → ∀ d, d.length = c.bs → (g d).length = c.bs) (t : Nat) {d : Bytes} (hd : d.length = c.bs) :
    (leaves fail t d).length = c.bs := by
  unfold leaves spoiled
  cases hf : fail t with
  | none => exact hd
  | some g => exact hfail t g hf d hd

theorem lastOf_length (h : Lawful c E D) {link : Bytes} (hl : link.length = c.bs) {bs : List Bytes} (hb : IsBlocks c.bs bs) :
    (lastOf link (Spec.cbcEnc E link bs)).length = c.bs := by
  rw [← runPure_encF_fst]
  exact runPure_inv (CBC.encF E) (fun v => v.length = c.bs) c.bs (fun v b a b' => (CBC.sEncStep_ok h v b a b').2) hl hb

theorem cbc_run (h : Lawful c E D) (hfail : ∀ t g, fail t = some g → ∀ d, d.length = c.bs → (g d).length = c.bs) {iv : Bytes} (hiv : iv.length = c.bs) {p : Padding}
    (hp : ∀ d, ∃ pb, IsBlocks c.bs pb ∧ pb ≠ [] ∧ p.padding d = pb.flatten) (ops : List Op) (x : Chain) (hx : x.link.length = c.bs) :
    (cbcEnc c fail p iv).run (ofChain x) ops = cbcRun E (bad fail) (leaves fail) c.bs iv p.padding x ops := by
  induction ops generalizing x with
  | nil => rfl
  | cons op ops ih =>
    cases op with
    | write d =>
      rw [Obj.run, show (cbcEnc c fail p iv).write = encWrite c.bs (cbcEncBody c fail) from rfl, encWrite_chain h hx, cbcRun]
      unfold chainWrite
      simp only
      by_cases hd : d = []
      · rw [if_pos hd, if_pos hd]; simp only [ih x hx]; rfl
      rw [if_neg hd, if_neg hd]
      by_cases hl : c.bs < x.pend.length
      · rw [if_pos hl, if_pos hl]; simp only [ih x hx]; rfl
      rw [if_neg hl, if_neg hl]
      have hB := blocksOf_isBlocks c.bs (x.pend ++ d)
      cases first (bad fail) x.t (blocksOf c.bs (x.pend ++ d)).length with
      | none => simp only; rw [ih _ (lastOf_length h hx hB)]; rfl
      | some k => simp only; rw [ih _ (leaves_length hfail _ (lastOf_length h hx (fun b hb => hB b (List.mem_of_mem_take hb))))]; rfl
    | draw =>
      rw [Obj.run, show (cbcEnc c fail p iv).write = encWrite c.bs (cbcEncBody c fail) from rfl, encWrite_chain h hx, cbcRun]
      simp only [chainWrite, if_true]
      have := ih { x with ready := [] } hx
      rw [← this]
      rfl
    | finish =>
      rw [Obj.run, show (cbcEnc c fail p iv).finish = encFinish c.bs (cbcFinBody c fail iv) p from rfl, encFinish_chain h hiv hp hx, cbcRun]
      unfold chainFinish
      simp only
      cases first (bad fail) x.t (blocksOf c.bs (p.padding x.pend)).length with
      | none => simp only; rw [ih _ hiv]
      | some k =>
        simp only
        rw [ih _ (leaves_length hfail _ (by split; exact hx; exact hiv))]
    | reset =>
      rw [Obj.run, cbcRun, ← ih _ hiv]
      rfl

end Verif.Model.Flaky
