import Verif.Spec.FlakyEmpty
import Verif.Props.FlakyChain

/-!
# C115: ECB and CBC encrypting streams without padding over a cipher that sometimes fails
-/

namespace Verif.Props
open Verif.Model Verif.Spec
open Verif.Spec.Flaky (Op Rules first twice writeCut finishBare Chain finBlocks cbcBare lastOf)
open Verif.Model.Flaky (Sched new R)

variable {c : BlockCipher} {E D : Bytes → Bytes}

/-- ECB encryption without padding. -/
def flakyEcbBare (bad : Nat → Bool) (E : Bytes → Bytes) (n : Nat) : Rules where
  n := n
  out m := (ecb E (blocksOf n m)).flatten
  write := writeCut bad n
  finish := finishBare bad n fun m => (ecb E (blocksOf n m)).flatten

private theorem finish_sim {fail : Sched} {spoil : (Bytes → Bytes) → Unit → Unit} {n : Nat} {step : Unit → Bytes → Res (Unit × Bytes)}
    {f : Unit → Bytes → Unit × Bytes} (hstep : ∀ s b, True → b.length = n → step s b = .ok (f s b) ∧ True)
    (htail : ∀ s b, b.length ≠ n → step s b = .error (.err .invalidParameter)) (hn : 0 < n) {out : Bytes → Bytes}
    (hout : ∀ blocks, IsBlocks n blocks → out blocks.flatten = (runPure f () blocks).2) {x : Spec.Flaky.St} {s : Model.Flaky.St Unit} (hR : R f n () x s) :
    (Model.Flaky.encFinish n (Model.Flaky.body fail step spoil) .empty s).1 = (finishBare (badCalls fail) n out x).1 ∧
      R f n () (finishBare (badCalls fail) n out x).2 (Model.Flaky.encFinish n (Model.Flaky.body fail step spoil) .empty s).2 := by
  obtain ⟨bs, t, g1, g2, g3⟩ := exists_blocks hn s.data
  obtain ⟨-, e3, e4⟩ := Model.Flaky.twice_sim (Inv := fun _ => True) hstep trivial hR [] (bs := bs) (tail := t) g1 (by simp [g3])
  simp only [List.append_nil] at e3 e4
  have hc := hR.calls_eq
  have hlm := hR.length_m
  have hlen : x.m.length / n = x.e + bs.length := by
    have := Model.Flaky.served_whole hn hR (d := []) g1 (t := t) g2 (by simp [g3])
    simpa using this
  have hmod : x.m.length % n = t.length := by
    rw [hlm, g3, List.length_append, g1.length_flatten, ← Nat.add_assoc, ← Nat.mul_add, Nat.mul_add_mod, Nat.mod_eq_of_lt g2]
  have hb : badCalls fail = Model.Flaky.bad fail := rfl
  rw [hc] at e4
  unfold Model.Flaky.encFinish finishBare
  simp only [hlen, Nat.add_sub_cancel_left, hmod, Padding.padding, hb]
  by_cases ht : t = []
  · subst ht
    rw [Model.Flaky.loop_eq (tail := []) (cont := contNe) hstep g1 hn (fun k hk => contNe_blocks hn k _ hk) (by simp [contNe]) trivial _ _ _ g3 _
      (Nat.lt_succ_self _), hc]
    cases hft : first (Model.Flaky.bad fail) x.t bs.length with
    | none =>
      simp only [List.length_nil, if_true]
      rw [hR.out_eq g1 (tail := []) g3 (out := out) (by simpa using hout)]
      exact ⟨rfl, R.new _⟩
    | some k => exact ⟨rfl, e4 k (Nat.le_of_lt (Model.Flaky.first_lt hft)) 1⟩
  · have ht0 : 0 < t.length := List.length_pos_iff.2 ht
    rw [Model.Flaky.loop_tail (Inv := fun _ => True) (er := .err .invalidParameter) hstep (fun s _ => htail s t (by omega)) g1 hn g2 ht0 trivial _ _ _ g3 _
      (Nat.lt_succ_self _), hc]
    cases hft : first (Model.Flaky.bad fail) x.t bs.length with
    | none =>
      simp only
      rw [if_neg (show ¬ t.length = 0 by omega)]
      have := e4 bs.length (Nat.le_refl _) 1
      simp only [List.take_length] at this
      exact ⟨rfl, this⟩
    | some k => exact ⟨rfl, e4 k (Nat.le_of_lt (Model.Flaky.first_lt hft)) 1⟩

/-- C115 (ECB encryption without padding), every schedule of failures and every history. -/
theorem C115_ecb_encrypt_empty (h : Lawful c E D) (fail : Sched) (t : Nat) (ops : List Op) :
    (Model.Flaky.ecbEnc c fail .empty).run (new () t) ops = (flakyEcbBare (badCalls fail) E c.bs).run (Spec.Flaky.St.new t) ops := by
  have hout : ∀ blocks, IsBlocks c.bs blocks → (ecb E (blocksOf c.bs blocks.flatten)).flatten = (runPure (ECB.encF E) () blocks).2 := fun b hb => by
    rw [blocksOf_flatten' h.pos hb, ECB.runPure_encF]
  refine Model.Flaky.run_eq (I := flakyEcbBare (badCalls fail) E c.bs) (R (ECB.encF E) c.bs ()) (fun x s d hR => ?_)
    (fun s => by simp [Model.Flaky.ecbEnc, Model.Flaky.encWrite]) (fun x s hR => hR.draw hout)
    (fun x s hR => ?_) (fun x s hR => hR.reset) ops (R.new t)
  · exact Model.Flaky.encWrite_sim (Inv := fun _ => True) (fun s b _ hb => ⟨(ECB.encStep_ok h s b trivial hb).1, trivial⟩) h.pos trivial (fun _ _ _ _ => rfl) d hR
  · exact finish_sim (fun s b _ hb => ⟨(ECB.encStep_ok h s b trivial hb).1, trivial⟩)
      (fun s b hb => by simp [ECB.encStep, h.encErr b hb]; rfl) h.pos hout hR

/-- Call number 1 of the cipher fails. -/
example : (Model.Flaky.ecbEnc (Toy.cipher 2) (failsAt 1) .empty).run (new () 0)
    [.write [1, 2, 3], .finish, .finish, .write [4], .finish, .write [5], .finish, .draw] =
    (flakyEcbBare (badCalls (failsAt 1)) Toy.E 2).run (Spec.Flaky.St.new 0)
    [.write [1, 2, 3], .finish, .finish, .write [4], .finish, .write [5], .finish, .draw] := by decide

example : (Model.Flaky.ecbEnc (Toy.cipher 2) (failsAt 1) .empty).run (new () 0)
    [.write [1, 2, 3], .finish, .finish, .write [4], .finish, .write [5], .finish, .draw] =
    [.ok [], .error (.err .innerErr), .error (.err .invalidParameter), .ok [], .ok (Toy.E [1, 2] ++ Toy.E [3, 4]), .ok [], .error (.err .invalidParameter),
      .ok []] := by decide

/-- When the cipher does not fail, a refused `finish` does no harm: the client writes the rest of the block, and the next `finish` gives the ciphertext of the whole
message. -/
theorem C115_ecb_empty_completed (h : Lawful c E D) (m q : Bytes) (hm : m.length % c.bs ≠ 0) (hq : q ≠ []) (hmq : (m ++ q).length % c.bs = 0) :
    (Model.Flaky.ecbEnc c (fun _ => none) .empty).run (new () 0) [.write m, .finish, .write q, .finish] =
      [.ok [], .error (.err .invalidParameter), .ok [], .ok (ecb E (blocksOf c.bs (m ++ q))).flatten] := by
  have hp := h.pos
  have hf : ∀ t w, first (badCalls fun _ => none) t w = none := fun t w => by rw [Model.Flaky.first_none]; intro i _; rfl
  have hm0 : m ≠ [] := by intro h0; subst h0; simp at hm
  have hdm := Nat.div_add_mod m.length c.bs
  have hlt := Nat.mod_lt m.length hp
  rw [C115_ecb_encrypt_empty h]
  have hz : ¬ c.bs < m.length - c.bs * (m.length / c.bs) := by omega
  have w1 : writeCut (badCalls fun _ => none) c.bs (Spec.Flaky.St.new 0) m = (.ok (), ⟨m, m.length / c.bs, m.length / c.bs, 0⟩) := by
    simp [writeCut, Spec.Flaky.St.new, hf, hm0]
  have f1 : ∀ out, finishBare (badCalls fun _ => none) c.bs out ⟨m, m.length / c.bs, m.length / c.bs, 0⟩ =
      (.error (.err .invalidParameter), ⟨m, m.length / c.bs, m.length / c.bs + 1, 0⟩) := by
    intro out
    simp [finishBare, hf, hm, twice, badCalls]
  have w2 : writeCut (badCalls fun _ => none) c.bs ⟨m, m.length / c.bs, m.length / c.bs + 1, 0⟩ q =
      (.ok (), ⟨m ++ q, (m ++ q).length / c.bs, m.length / c.bs + 1 + ((m ++ q).length / c.bs - m.length / c.bs), 0⟩) := by
    simp only [writeCut, if_neg hq, if_neg hz, hf]
  simp only [Rules.run, flakyEcbBare, w1, f1, w2, Except.map]
  simp only [finishBare, hf, hmq, if_true, List.drop_zero]

example : ([1, 2, 3] : Bytes).length % (Toy.cipher 2).bs ≠ 0 ∧ ([1, 2, 3] ++ [4] : Bytes).length % (Toy.cipher 2).bs = 0 := by decide

/-! ## CBC -/

/-- What a `finish` returns and the state that it leaves. -/
private def bareFinish (E : Bytes → Bytes) (fail : Sched) (n : Nat) (iv : Bytes) (x : Chain) : Res Bytes × Chain :=
  let bs := blocksOf n x.pend
  let w := bs.length
  match first (Model.Flaky.bad fail) x.t w with
  | none =>
    if x.pend.length % n = 0 then (.ok (x.ready ++ (finBlocks E iv x.link bs).flatten), ⟨[], [], if w = 0 then x.link else iv, x.t + w⟩)
    else (.error (if Model.Flaky.bad fail (x.t + w) then .err .innerErr else .err .invalidParameter),
      ⟨x.pend, x.ready ++ (finBlocks E iv x.link bs).flatten, Model.Flaky.leaves fail (x.t + w) (if w = 0 then x.link else iv), x.t + w + 1⟩)
  | some k => (.error (.err .innerErr), ⟨x.pend, x.ready ++ (finBlocks E iv x.link (bs.take k)).flatten,
      Model.Flaky.leaves fail (x.t + k) (if k = 0 then x.link else iv), x.t + k + 1⟩)

private theorem finish_bare (h : Lawful c E D) {fail : Sched} {iv : Bytes} (hiv : iv.length = c.bs) {x : Chain} (hx : x.link.length = c.bs) :
    Model.Flaky.encFinish c.bs (Model.Flaky.cbcFinBody c fail iv) .empty (Model.Flaky.ofChain x) =
      ((bareFinish E fail c.bs iv x).1, Model.Flaky.ofChain (bareFinish E fail c.bs iv x).2) := by
  obtain ⟨bs, t, g1, g2, g3⟩ := exists_blocks h.pos x.pend
  have hB : blocksOf c.bs x.pend = bs := by rw [g3, blocksOf_flatten h.pos g1 g2]
  have hmod : x.pend.length % c.bs = t.length := by
    rw [g3, List.length_append, g1.length_flatten, Nat.mul_add_mod, Nat.mod_eq_of_lt g2]
  unfold Model.Flaky.encFinish bareFinish Model.Flaky.cbcFinBody
  simp only [Model.Flaky.ofChain, Padding.padding, hB, hmod]
  by_cases ht : t = []
  · subst ht
    rw [Model.Flaky.loop_eq (tail := []) (cont := contNe) (Inv := fun v => v.length = c.bs) (Model.Flaky.fin_step h hiv) g1 h.pos
      (fun k hk => contNe_blocks h.pos k _ hk) (by simp [contNe]) hx _ _ _ g3 _ (Nat.lt_succ_self _)]
    cases hft : first (Model.Flaky.bad fail) x.t bs.length with
    | none => simp only [Model.Flaky.runPure_finF_snd, Model.Flaky.runPure_finF_fst, List.length_nil, if_true]
    | some k =>
      have hk := Model.Flaky.first_lt hft
      simp only [Model.Flaky.runPure_finF_snd, Model.Flaky.runPure_finF_fst, List.length_take, Nat.min_eq_left (Nat.le_of_lt hk)]
      rfl
  · have ht0 : 0 < t.length := List.length_pos_iff.2 ht
    rw [Model.Flaky.loop_tail (Inv := fun v => v.length = c.bs) (er := .err .invalidParameter) (Model.Flaky.fin_step h hiv)
      (fun s hs => by
        have : (xorBytes t s).length ≠ c.bs := by rw [length_xorBytes]; omega
        simp [CBC.finStep, h.encErr _ this]; rfl) g1 h.pos g2 ht0 hx _ _ _ g3 _ (Nat.lt_succ_self _)]
    cases hft : first (Model.Flaky.bad fail) x.t bs.length with
    | none =>
      simp only [Model.Flaky.runPure_finF_snd, Model.Flaky.runPure_finF_fst]
      rw [if_neg (show ¬ t.length = 0 by omega)]
      rfl
    | some k =>
      have hk := Model.Flaky.first_lt hft
      simp only [Model.Flaky.runPure_finF_snd, Model.Flaky.runPure_finF_fst, List.length_take, Nat.min_eq_left (Nat.le_of_lt hk)]
      rfl

private theorem bare_run (h : Lawful c E D) {fail : Sched} (hfail : ∀ t g, fail t = some g → ∀ d, d.length = c.bs → (g d).length = c.bs) {iv : Bytes}
    (hiv : iv.length = c.bs) (ops : List Op) (x : Chain) (hx : x.link.length = c.bs) :
    (Model.Flaky.cbcEnc c fail .empty iv).run (Model.Flaky.ofChain x) ops = cbcBare E (Model.Flaky.bad fail) (Model.Flaky.leaves fail) c.bs iv x ops := by
  induction ops generalizing x with
  | nil => rfl
  | cons op ops ih =>
    cases op with
    | write d =>
      rw [Model.Flaky.Obj.run, show (Model.Flaky.cbcEnc c fail .empty iv).write = Model.Flaky.encWrite c.bs (Model.Flaky.cbcEncBody c fail) from rfl,
        Model.Flaky.encWrite_chain h hx, cbcBare]
      unfold Model.Flaky.chainWrite
      simp only
      by_cases hd : d = []
      · rw [if_pos hd, if_pos hd]; simp only [ih x hx]; rfl
      rw [if_neg hd, if_neg hd]
      by_cases hl : c.bs < x.pend.length
      · rw [if_pos hl, if_pos hl]; simp only [ih x hx]; rfl
      rw [if_neg hl, if_neg hl]
      have hB := blocksOf_isBlocks c.bs (x.pend ++ d)
      cases first (Model.Flaky.bad fail) x.t (blocksOf c.bs (x.pend ++ d)).length with
      | none => simp only; rw [ih _ (Model.Flaky.lastOf_length h hx hB)]; rfl
      | some k =>
        simp only
        rw [ih _ (Model.Flaky.leaves_length hfail _ (Model.Flaky.lastOf_length h hx (fun b hb => hB b (List.mem_of_mem_take hb))))]; rfl
    | draw =>
      rw [Model.Flaky.Obj.run, show (Model.Flaky.cbcEnc c fail .empty iv).write = Model.Flaky.encWrite c.bs (Model.Flaky.cbcEncBody c fail) from rfl,
        Model.Flaky.encWrite_chain h hx, cbcBare]
      simp only [Model.Flaky.chainWrite, if_true]
      have := ih { x with ready := [] } hx
      rw [← this]
      rfl
    | finish =>
      rw [Model.Flaky.Obj.run, show (Model.Flaky.cbcEnc c fail .empty iv).finish = Model.Flaky.encFinish c.bs (Model.Flaky.cbcFinBody c fail iv) .empty from rfl,
        finish_bare h hiv hx, cbcBare]
      unfold bareFinish
      simp only
      cases first (Model.Flaky.bad fail) x.t (blocksOf c.bs x.pend).length with
      | none =>
        by_cases hm : x.pend.length % c.bs = 0
        · simp only [if_pos hm]; rw [ih _ (by dsimp only; split; exact hx; exact hiv)]
        · simp only [if_neg hm]
          rw [ih _ (Model.Flaky.leaves_length hfail _ (by split; exact hx; exact hiv))]
      | some k =>
        simp only
        rw [ih _ (Model.Flaky.leaves_length hfail _ (by split; exact hx; exact hiv))]
    | reset =>
      rw [Model.Flaky.Obj.run, cbcBare, ← ih _ hiv]
      rfl

/-- C115 (CBC encryption without padding), every schedule of failures, whatever the failing calls leave behind, and every history. -/
theorem C115_cbc_encrypt_empty (h : Lawful c E D) (fail : Sched) (hfail : ∀ t g, fail t = some g → ∀ d, d.length = c.bs → (g d).length = c.bs) (iv : Bytes)
    (hiv : iv.length = c.bs) (t : Nat) (ops : List Op) :
    (Model.Flaky.cbcEnc c fail .empty iv).run (new iv t) ops = cbcBare E (badCalls fail) (leftBy fail) c.bs iv ⟨[], [], iv, t⟩ ops := by
  have e : Model.Flaky.leaves fail = leftBy fail := by
    funext t d
    unfold Model.Flaky.leaves Model.Flaky.spoiled leftBy
    cases fail t <;> rfl
  rw [← e]
  exact bare_run h hfail hiv ops ⟨[], [], iv, t⟩ hiv

/-- The call number 1 fails and clears its destination. -/
example : (Model.Flaky.cbcEnc (Toy.cipher 2) (fun t => if t = 1 then some (fun _ => [0, 0]) else none) .empty [5, 6]).run (new [5, 6] 0)
    [.write [1, 2, 3], .finish, .finish, .write [4], .finish, .write [7], .finish, .draw] =
    [.ok [], .error (.err .innerErr), .error (.err .invalidParameter), .ok [], .ok (Toy.E (xorBytes [1, 2] [5, 6]) ++ Toy.E [3, 4]), .ok [],
      .error (.err .invalidParameter), .ok []] := by decide

end Verif.Props
