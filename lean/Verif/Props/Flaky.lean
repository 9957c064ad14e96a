import Verif.Proof.FlakyLink
import Verif.Proof.Toy

/-!
# C115: a cipher whose calls may fail at any moment inside a stream

The streams of all five modes over a cipher that fails whenever it likes, under every history of `write`, `draw_off`, `finish` and `reset`. The rules
(Spec/Flaky) say exactly what every call returns; the theorems after them say what goes wrong.
-/

namespace Verif.Props
open Verif.Model Verif.Spec
open Verif.Spec.Flaky (Op Rules first twice writeCut writeTwice finishPad finishBlock finishSegments finishKey finishChain served keyed ctrRun)
open Verif.Model.Flaky (Sched new R)

variable {c : BlockCipher} {E D : Bytes → Bytes}

/-- Which calls fail. -/
def badCalls (fail : Sched) (t : Nat) : Bool := (fail t).isSome

/-- Exactly the call number `k` fails; it leaves its destination alone. -/
def failsAt (k : Nat) : Sched := fun t => if t = k then some id else none

/-- The specification's `first`: `none` exactly if none of the `w` calls fails, `some k` exactly if the call after `k` served ones is the first to fail. -/
theorem C115_first (bad : Nat → Bool) (t w : Nat) :
    (first bad t w = none ↔ ∀ i, i < w → bad (t + i) = false) ∧
    ∀ k, first bad t w = some k ↔ k < w ∧ bad (t + k) = true ∧ ∀ i, i < k → bad (t + i) = false :=
  ⟨Model.Flaky.first_none, fun _ => Model.Flaky.first_some⟩

example : first (fun t => t == 5) 3 4 = some 2 := by decide
example : first (fun t => t == 5) 3 2 = none := by decide

/-! ## The rules -/

/-- ECB encryption. -/
def flakyEcbEnc (bad : Nat → Bool) (E : Bytes → Bytes) (n : Nat) (pad : Bytes → Bytes) : Rules where
  n := n
  out m := (ecb E (blocksOf n m)).flatten
  write := writeCut bad n
  finish := finishPad bad n pad fun m => (ecb E (blocksOf n m)).flatten

/-- CFB encryption with segments of `s` bytes. -/
def flakyCfbEnc (bad : Nat → Bool) (E : Bytes → Bytes) (s : Nat) (iv : Bytes) (pad : Bytes → Bytes) : Rules where
  n := s
  out m := (cfbEnc E s iv (blocksOf s m)).flatten
  write := writeCut bad s
  finish := finishPad bad s pad fun m => (cfbEnc E s iv (blocksOf s m)).flatten

/-- CBC encryption; `finish` comes last. -/
def flakyCbcEnc (bad : Nat → Bool) (E : Bytes → Bytes) (n : Nat) (iv : Bytes) (pad : Bytes → Bytes) : Rules where
  n := n
  out m := (cbcEnc E iv (blocksOf n m)).flatten
  write := writeCut bad n
  finish := finishChain bad n pad (fun m => (cbcEnc E iv (blocksOf n m)).flatten) fun m => ((blocksOf n m).map fun b => E (xorBytes b iv)).flatten

/-- ECB and CBC decryption; `dec` decrypts blocks. One block is held back. -/
def flakyBlockDec (bad : Nat → Bool) (dec : List Bytes → List Bytes) (n : Nat) (unpad : Bytes → Res Bytes) : Rules where
  n := n
  out m := (dec (blocksOf n m)).flatten
  write := writeTwice bad n fun l => (l - 1) / n
  finish := finishBlock bad n unpad fun m => (dec (blocksOf n m)).flatten

/-- CFB decryption. -/
def flakyCfbDec (bad : Nat → Bool) (E : Bytes → Bytes) (s : Nat) (iv : Bytes) (unpad : Bytes → Res Bytes) : Rules where
  n := s
  out m := (cfbDec E s iv (blocksOf s m)).flatten
  write := writeTwice bad s fun l => l / s
  finish := finishSegments bad s unpad fun m => (cfbDec E s iv (blocksOf s m)).flatten

/-- OFB, both directions. -/
def flakyOfb (bad : Nat → Bool) (E : Bytes → Bytes) (n : Nat) (iv : Bytes) : Rules where
  n := n
  out := ofb E n iv
  write := writeTwice bad n fun l => l / n
  finish := finishKey bad n (ofb E n iv)

private theorem pad_whole (h : 0 < c.bs) (d : Bytes) : ∃ pb, IsBlocks c.bs pb ∧ pb ≠ [] ∧ (Padding.defaultOf c).padding d = pb.flatten := by
  have hl : ((Padding.defaultOf c).padding d).length % c.bs = 0 := by
    rw [Padding.defaultOf, length_padding_default]; exact padZeros_mod _ h _
  refine ⟨blocksOf c.bs ((Padding.defaultOf c).padding d), blocksOf_isBlocks _ _, ?_, (flatten_blocksOf h hl).symm⟩
  intro h0
  have := flatten_blocksOf h hl
  rw [h0] at this
  have := congrArg List.length this
  rw [Padding.defaultOf, length_padding_default] at this
  simp at this
  omega

/-- C115 (ECB encryption): for every schedule of failures, whatever a failing call leaves in its destination, and every history. -/
theorem C115_ecb_encrypt (h : Lawful c E D) (fail : Sched) (t : Nat) (ops : List Op) :
    (Model.Flaky.ecbEnc c fail (.defaultOf c)).run (new () t) ops =
      (flakyEcbEnc (badCalls fail) E c.bs (Padding.defaultOf c).padding).run (Spec.Flaky.St.new t) ops := by
  have hout : ∀ blocks, IsBlocks c.bs blocks → (ecb E (blocksOf c.bs blocks.flatten)).flatten = (runPure (ECB.encF E) () blocks).2 := fun b hb => by
    rw [blocksOf_flatten' h.pos hb, ECB.runPure_encF]
  refine Model.Flaky.run_eq (I := flakyEcbEnc (badCalls fail) E c.bs (Padding.defaultOf c).padding) (R (ECB.encF E) c.bs ()) (fun x s d hR => ?_)
    (fun s => by simp [Model.Flaky.ecbEnc, Model.Flaky.encWrite]) (fun x s hR => hR.draw hout)
    (fun x s hR => ?_) (fun x s hR => hR.reset) ops (R.new t)
  · exact Model.Flaky.encWrite_sim (Inv := fun _ => True) (fun s b _ hb => ⟨(ECB.encStep_ok h s b trivial hb).1, trivial⟩) h.pos trivial (fun _ _ _ _ => rfl) d hR
  · exact Model.Flaky.encFinish_sim (fun s b _ hb => ⟨(ECB.encStep_ok h s b trivial hb).1, trivial⟩) h.pos
      (fun d => by obtain ⟨pb, h1, -, h2⟩ := pad_whole h.pos d; exact ⟨pb, h1, h2⟩) hout hR

/-- C115 (CFB encryption). -/
theorem C115_cfb_encrypt (h : Lawful c E D) (fail : Sched) (p : Padding) (s : Nat) (hs0 : 0 < s) (hs : s ≤ c.bs) (iv : Bytes) (hiv : iv.length = c.bs) (t : Nat)
    (ops : List Op) :
    (Model.Flaky.cfbEnc c fail p s iv).run (new iv t) ops = (flakyCfbEnc (badCalls fail) E s iv p.padding).run (Spec.Flaky.St.new t) ops := by
  have hout : ∀ blocks tail, IsBlocks s blocks → tail.length < s →
      (cfbEnc E s iv (blocksOf s (blocks.flatten ++ tail))).flatten = (runPure (CFB.encF E s) iv blocks).2 := fun b t hb ht => by
    rw [blocksOf_flatten hs0 hb ht, CFB.runPure_encF_snd]
  refine Model.Flaky.run_eq (I := flakyCfbEnc (badCalls fail) E s iv p.padding) (R (CFB.encF E s) s iv) (fun x u d hR => ?_)
    (fun u => by simp [Model.Flaky.cfbEnc, Model.Flaky.encWrite])
    (fun x u hR => hR.draw (fun b hb => by have := hout b [] hb hs0; rwa [List.append_nil] at this))
    (fun x u hR => ?_) (fun x u hR => hR.reset) ops (R.new t)
  · exact Model.Flaky.encWrite_sim (Inv := fun v => v.length = c.bs) (CFB.encStep_ok h hs) hs0 hiv (fun _ _ _ _ => rfl) d hR
  · exact Model.Flaky.cfbFinish_sim (Inv := fun v => v.length = c.bs) (CFB.encStep_ok h hs) hs0 hiv (fun _ _ _ _ => rfl) p hout hR

/-- C115 (CBC encryption), for histories in which `finish` only comes last, over a cipher whose failing calls leave their destination alone:
the results in terms of the message. For all other histories see `C115_cbc_encrypt` (Props/FlakyChain). -/
theorem C115_cbc_encrypt_to_finish (h : Lawful c E D) (fail : Sched) (hfail : ∀ t g, fail t = some g → ∀ d, g d = d) (iv : Bytes) (hiv : iv.length = c.bs) (t : Nat)
    (ops : List Op) (hops : ∀ op ∈ ops, op ≠ .finish) :
    (Model.Flaky.cbcEnc c fail (.defaultOf c) iv).run (new iv t) (ops ++ [.finish]) =
      (flakyCbcEnc (badCalls fail) E c.bs iv (Padding.defaultOf c).padding).run (Spec.Flaky.St.new t) (ops ++ [.finish]) := by
  refine Model.Flaky.run_last (I := flakyCbcEnc (badCalls fail) E c.bs iv (Padding.defaultOf c).padding) (R (CBC.encF E) c.bs iv) (fun x s d hR => ?_)
    (fun s => by simp [Model.Flaky.cbcEnc, Model.Flaky.encWrite])
    (fun x s hR => hR.draw fun b hb => by
      show (cbcEnc E iv (blocksOf c.bs b.flatten)).flatten = _
      rw [blocksOf_flatten' h.pos hb, CBC.runPure_encF_snd])
    (fun x s hR => ?_) (fun x s hR => hR.reset) ops hops (R.new t)
  · exact Model.Flaky.encWrite_sim (Inv := fun v => v.length = c.bs) (CBC.sEncStep_ok h) h.pos hiv (fun t g s hg => hfail t g hg s) d hR
  · exact Model.Flaky.cbcFinish_last h hiv (pad_whole h.pos) hR

/-- C115 (ECB decryption). -/
theorem C115_ecb_decrypt (h : Lawful c E D) (fail : Sched) (p : Padding) (t : Nat) (ops : List Op) :
    (Model.Flaky.ecbDec c fail p).run (new () t) ops = (flakyBlockDec (badCalls fail) (ecb D) c.bs p.unpad).run (Spec.Flaky.St.new t) ops := by
  have hout : ∀ blocks, IsBlocks c.bs blocks → (ecb D (blocksOf c.bs blocks.flatten)).flatten = (runPure (ECB.encF D) () blocks).2 := fun b hb => by
    rw [blocksOf_flatten' h.pos hb, ECB.runPure_encF]
  refine Model.Flaky.run_eq (I := flakyBlockDec (badCalls fail) (ecb D) c.bs p.unpad) (R (ECB.encF D) c.bs ()) (fun x s d hR => ?_)
    (fun s => by simp [Model.Flaky.ecbDec, Model.Flaky.decWrite]) (fun x s hR => hR.draw hout)
    (fun x s hR => ?_) (fun x s hR => hR.reset) ops (R.new t)
  · exact Model.Flaky.decWrite_sim (Inv := fun _ => True) (fun s b _ hb => ⟨(ECB.decStep_ok h s b trivial hb).1, trivial⟩) h.pos trivial (fun _ _ _ _ => rfl) d hR
  · exact Model.Flaky.decFinish_sim h (Inv := fun _ => True) (fun _ b _ hb => ⟨trivial, h.lenD b hb⟩) trivial (fun _ _ _ _ => rfl) (fun _ => rfl) p hout hR

/-- C115 (CBC decryption). -/
theorem C115_cbc_decrypt (h : Lawful c E D) (fail : Sched) (p : Padding) (iv : Bytes) (hiv : iv.length = c.bs) (t : Nat) (ops : List Op) :
    (Model.Flaky.cbcDec c fail p iv).run (new iv t) ops = (flakyBlockDec (badCalls fail) (cbcDec D iv) c.bs p.unpad).run (Spec.Flaky.St.new t) ops := by
  have hout : ∀ blocks, IsBlocks c.bs blocks → (cbcDec D iv (blocksOf c.bs blocks.flatten)).flatten = (runPure (CBC.decF D) iv blocks).2 := fun b hb => by
    rw [blocksOf_flatten' h.pos hb, CBC.runPure_decF_snd]
  refine Model.Flaky.run_eq (I := flakyBlockDec (badCalls fail) (cbcDec D iv) c.bs p.unpad) (R (CBC.decF D) c.bs iv) (fun x s d hR => ?_)
    (fun s => by simp [Model.Flaky.cbcDec, Model.Flaky.decWrite]) (fun x s hR => hR.draw hout)
    (fun x s hR => ?_) (fun x s hR => hR.reset) ops (R.new t)
  · exact Model.Flaky.decWrite_sim (Inv := fun v => v.length = c.bs) (CBC.sDecStep_ok h) h.pos hiv (fun _ _ _ _ => rfl) d hR
  · refine Model.Flaky.decFinish_sim h (Inv := fun v => v.length = c.bs)
      (fun v b hv hb => ⟨hb, by simp only [CBC.decF, length_xorBytes, h.lenD b hb, hv, Nat.min_self]⟩) hiv (fun v b hv hb => ?_) (fun _ => rfl) p hout hR
    have := h.lenD b hb
    simp only [CBC.decF, this, hv, Nat.min_self]
    rw [List.take_of_length_le (Nat.le_of_eq this), List.take_of_length_le (Nat.le_of_eq hv), List.drop_eq_nil_of_le (Nat.le_of_eq this), List.append_nil,
      xorBytes_comm]

/-- C115 (CFB decryption). -/
theorem C115_cfb_decrypt (h : Lawful c E D) (fail : Sched) (p : Padding) (s : Nat) (hs0 : 0 < s) (hs : s ≤ c.bs) (iv : Bytes) (hiv : iv.length = c.bs) (t : Nat)
    (ops : List Op) :
    (Model.Flaky.cfbDec c fail p s iv).run (new iv t) ops = (flakyCfbDec (badCalls fail) E s iv p.unpad).run (Spec.Flaky.St.new t) ops := by
  have hout : ∀ blocks, IsBlocks s blocks → (cfbDec E s iv (blocksOf s blocks.flatten)).flatten = (runPure (CFB.decF E s) iv blocks).2 := fun b hb => by
    rw [blocksOf_flatten' hs0 hb, CFB.runPure_decF_snd]
  refine Model.Flaky.run_eq (I := flakyCfbDec (badCalls fail) E s iv p.unpad) (R (CFB.decF E s) s iv) (fun x u d hR => ?_)
    (fun u => by simp [Model.Flaky.cfbDec, Model.Flaky.wholeWrite]) (fun x u hR => hR.draw hout)
    (fun x u hR => ?_) (fun x u hR => hR.reset) ops (R.new t)
  · exact Model.Flaky.wholeWrite_sim (Inv := fun v => v.length = c.bs) (CFB.decStep_ok h hs) hs0 hiv (fun _ _ _ _ => rfl) d hR
  · refine Model.Flaky.cfbDecFinish_sim (Inv := fun v => v.length = c.bs) (CFB.decStep_ok h hs) (fun v b hv hb => ?_) hs0 hiv (fun _ _ _ _ => rfl) p hout hR
    rw [CFB.decStep, h.enc v hv]
    simp [bind, Except.bind, hb]

/-- C115 (OFB, both directions). -/
theorem C115_ofb (h : Lawful c E D) (fail : Sched) (iv : Bytes) (hiv : iv.length = c.bs) (t : Nat) (ops : List Op) :
    (Model.Flaky.ofb c fail iv).run (new iv t) ops = (flakyOfb (badCalls fail) E c.bs iv).run (Spec.Flaky.St.new t) ops := by
  refine Model.Flaky.run_eq (I := flakyOfb (badCalls fail) E c.bs iv) (R (OFB.stepF E) c.bs iv) (fun x s d hR => ?_)
    (fun s => by simp [Model.Flaky.ofb, Model.Flaky.ofbWrite])
    (fun x s hR => hR.draw fun b hb => (OFB.runPure_stepF_snd h hiv hb).symm)
    (fun x s hR => ?_) (fun x s hR => hR.reset) ops (R.new t)
  · exact Model.Flaky.ofbWrite_sim (Inv := fun v => v.length = c.bs) (OFB.step_ok h) h.pos hiv (fun _ _ _ _ => rfl) d hR
  · exact Model.Flaky.ofbFinish_sim h hiv hR

/-- C115 (CTR, both directions), for every counter that yields a block each time and goes back to its start when reset. -/
theorem C115_ctr {κ : Type} {ops : CounterOps κ} (h : Lawful c E D) (fail : Sched) (k : κ) (v : Nat → Bytes)
    (hv : ∀ i, ops.value k i = some (v i) ∧ c.bs ≤ (v i).length) (hr : ∀ j, ops.reset (ops.after k j) = k) (t : Nat) (hist : List Op) :
    (Model.Flaky.ctr c fail ops).run (new k t) hist =
      ctrRun (fun i => E ((v i).take c.bs)) (badCalls fail) c.bs (Spec.Flaky.St.new t) t hist := by
  have hk : CTR.Good c ops k := fun i => ⟨v i, hv i⟩
  have hin : (fun i => E ((v i).take c.bs)) = Model.Flaky.key c E ops k := by funext i; simp [Model.Flaky.key, CTR.input, (hv i).1]
  rw [hin]
  refine Model.Flaky.ctr_run_eq h hk hr hist ⟨[], [], .nil, rfl, rfl, rfl, Nat.le_refl _, ?_, ?_, rfl, rfl⟩
  · simp [new, Spec.Flaky.St.new, CounterOps.after]
  · simp [served, Spec.Flaky.St.new]

/-! Cases in which a call fails and the history goes on (block size 2, all five modes). -/

/-- A history with two writes, drawing off, `finish` and `reset`. -/
def flakyHistory : List Op := [.write [1, 2, 3], .draw, .write [4, 5, 6, 7, 8], .draw, .write [9], .finish, .reset, .write [1], .finish]

example : (Model.Flaky.ecbEnc (Toy.cipher 2) (failsAt 2) (.defaultOf (Toy.cipher 2))).run (new () 0) flakyHistory =
    [.ok [], .ok [3, 2], .error (.err .innerErr), .ok [5, 4], .ok [], .ok [0x81, 10, 1, 1], .ok [], .ok [], .ok [0x81, 2, 1, 1]] := by decide
example : (Model.Flaky.cfbEnc (Toy.cipher 2) (failsAt 2) (.defaultOf (Toy.cipher 2)) 2 [0, 0]).run (new [0, 0] 0) flakyHistory =
    (flakyCfbEnc (fun t => t == 2) Toy.E 2 [0, 0] (Padding.default 2).padding).run (Spec.Flaky.St.new 0) flakyHistory := by decide
example : (Model.Flaky.cbcEnc (Toy.cipher 2) (failsAt 1) (.defaultOf (Toy.cipher 2)) [0, 0]).run (new [0, 0] 0) [.write [1, 2, 3, 4, 5], .draw, .finish] =
    [.error (.err .innerErr), .ok [3, 2], .ok [3, 0x84]] := by decide
example : (Model.Flaky.ecbDec (Toy.cipher 2) (failsAt 0) .empty).run (new () 0) [.write [3, 2, 5, 4], .draw, .write [7, 6], .finish] =
    [.error (.err .innerErr), .ok [], .ok [], .ok [1, 2, 3, 4, 5, 6]] := by decide
example : (Model.Flaky.cbcDec (Toy.cipher 2) (failsAt 1) .empty [0, 0]).run (new [0, 0] 0) [.write [3, 2, 5, 4, 7, 6], .draw, .write [9, 8], .finish] =
    [.error (.err .innerErr), .ok [1, 2], .ok [], .ok [2, 0, 0, 6, 0, 2, 0, 14]] := by decide
example : (Model.Flaky.cfbDec (Toy.cipher 2) (failsAt 1) .empty 1 [0, 0]).run (new [0, 0] 0) [.write [3, 2], .draw, .write [9], .finish] =
    [.error (.err .innerErr), .ok [2], .ok [], .ok [7, 6, 10]] := by decide
example : (Model.Flaky.ofb (Toy.cipher 2) (failsAt 1) [0, 0]).run (new [0, 0] 0) [.write [0, 0, 0, 0], .draw, .write [0], .finish] =
    [.error (.err .innerErr), .ok [1, 1], .ok [], .ok [2, 2, 3, 3, 4]] := by decide
example : (Model.Flaky.ctr (Toy.cipher 2) (failsAt 1) DefaultCounter.ops).run (new ⟨16, [0, 5], none⟩ 0) [.write [0, 0, 0, 0], .draw, .write [0], .finish, .reset, .write [0], .finish] =
    [.error (.err .innerErr), .ok [6, 1], .ok [], .ok [8, 1, 9, 1, 10], .ok [], .ok [], .ok [6]] := by decide

/-! ## No failures: the models of the modes -/

/-- C115: over a cipher that never fails the objects are those of C05 to C14: whatever state the stream is in, `write` and `finish` return the same and leave the
same stream. `SameWrite` and `SameFinish` compare results and, after a success, `data`, the pond and the mode state. -/
theorem C115_no_failures {κ : Type} {ops : CounterOps κ} (fail : Sched) (hf : ∀ t, fail t = none) (p : Padding) (n : Nat) (hn : 0 < n) (iv d : Bytes)
    (u : Model.Flaky.St Unit) (s : Model.Flaky.St Bytes) (k : Model.Flaky.St κ) :
    (((Model.Flaky.ecbEnc c fail p).write u d).1.map (fun _ => ((Model.Flaky.ecbEnc c fail p).write u d).2.forget) = (ECB.encStream c p).write u.forget d ∧
      ((Model.Flaky.ecbEnc c fail p).finish u).1.map (fun o => (o, ((Model.Flaky.ecbEnc c fail p).finish u).2.forget)) = (ECB.encStream c p).finish u.forget) ∧
    (((Model.Flaky.ecbDec c fail p).write u d).1.map (fun _ => ((Model.Flaky.ecbDec c fail p).write u d).2.forget) = (ECB.decStream c p).write u.forget d ∧
      ((Model.Flaky.ecbDec c fail p).finish u).1.map (fun o => (o, ((Model.Flaky.ecbDec c fail p).finish u).2.forget)) = (ECB.decStream c p).finish u.forget) ∧
    (((Model.Flaky.cbcEnc c fail p iv).write s d).1.map (fun _ => ((Model.Flaky.cbcEnc c fail p iv).write s d).2.forget) = (CBC.encStream c p iv).write s.forget d ∧
      ((Model.Flaky.cbcEnc c fail p iv).finish s).1.map (fun o => (o, ((Model.Flaky.cbcEnc c fail p iv).finish s).2.forget)) =
        (CBC.encStream c p iv).finish s.forget) ∧
    (((Model.Flaky.cbcDec c fail p iv).write s d).1.map (fun _ => ((Model.Flaky.cbcDec c fail p iv).write s d).2.forget) = (CBC.decStream c p iv).write s.forget d ∧
      ((Model.Flaky.cbcDec c fail p iv).finish s).1.map (fun o => (o, ((Model.Flaky.cbcDec c fail p iv).finish s).2.forget)) =
        (CBC.decStream c p iv).finish s.forget) ∧
    (((Model.Flaky.cfbEnc c fail p n iv).write s d).1.map (fun _ => ((Model.Flaky.cfbEnc c fail p n iv).write s d).2.forget) =
        (CFB.encStream c p n iv).write s.forget d ∧
      ((Model.Flaky.cfbEnc c fail p n iv).finish s).1.map (fun o => (o, ((Model.Flaky.cfbEnc c fail p n iv).finish s).2.forget)) =
        (CFB.encStream c p n iv).finish s.forget) ∧
    (((Model.Flaky.cfbDec c fail p n iv).write s d).1.map (fun _ => ((Model.Flaky.cfbDec c fail p n iv).write s d).2.forget) =
        (CFB.decStream c p n iv).write s.forget d ∧
      ((Model.Flaky.cfbDec c fail p n iv).finish s).1.map (fun o => (o, ((Model.Flaky.cfbDec c fail p n iv).finish s).2.forget)) =
        (CFB.decStream c p n iv).finish s.forget) ∧
    (((Model.Flaky.ofb c fail iv).write s d).1.map (fun _ => ((Model.Flaky.ofb c fail iv).write s d).2.forget) = (OFB.stream c iv).write s.forget d ∧
      ((Model.Flaky.ofb c fail iv).finish s).1.map (fun o => (o, ((Model.Flaky.ofb c fail iv).finish s).2.forget)) = (OFB.stream c iv).finish s.forget) ∧
    (((Model.Flaky.ctr c fail ops).write k d).1.map (fun _ => ((Model.Flaky.ctr c fail ops).write k d).2.forget) = (CTR.stream c ops).write k.forget d ∧
      ((Model.Flaky.ctr c fail ops).finish k).1.map (fun o => (o, ((Model.Flaky.ctr c fail ops).finish k).2.forget)) = (CTR.stream c ops).finish k.forget) :=
  ⟨⟨Model.Flaky.ecbEnc_write_never hf p u d, Model.Flaky.ecbEnc_finish_never hf p u⟩,
    ⟨Model.Flaky.ecbDec_write_never hf p u d, Model.Flaky.ecbDec_finish_never hf p u⟩,
    ⟨Model.Flaky.cbcEnc_write_never hf p iv s d, Model.Flaky.cbcEnc_finish_never hf p iv s⟩,
    ⟨Model.Flaky.cbcDec_write_never hf p iv s d, Model.Flaky.cbcDec_finish_never hf p iv s⟩,
    ⟨Model.Flaky.cfbEnc_write_never hf p hn iv s d, Model.Flaky.cfbEnc_finish_never hf p n iv s⟩,
    ⟨Model.Flaky.cfbDec_write_never hf p n iv s d, Model.Flaky.cfbDec_finish_never hf p n iv s⟩,
    ⟨Model.Flaky.ofb_write_never hf iv s d, Model.Flaky.ofb_finish_never hf iv s⟩, ⟨Model.Flaky.ctr_write_never hf k d, Model.Flaky.ctr_finish_never hf k⟩⟩

/-- Non-vacuity: the schedule without failures. -/
example : (Model.Flaky.cbcEnc (Toy.cipher 2) (fun _ => none) (.defaultOf (Toy.cipher 2)) [0, 0]).run (new [0, 0] 0) [.write [1, 2], .finish] =
    [.ok [], .ok [3, 2, 3, 0x84]] := by decide

/-! ## What goes wrong, and what does not -/

/-- C115: on the decrypting streams of ECB, CBC and CFB and on OFB, a `write` whose first call of the cipher fails is merely late: the history goes on as if its
data had been part of the next `write`. -/
theorem C115_first_call_harmless (h : Lawful c E D) (fail : Sched) (t : Nat) (ht : (fail t).isSome) (p : Padding) (s : Nat) (hs0 : 0 < s) (hs : s ≤ c.bs)
    (iv : Bytes) (hiv : iv.length = c.bs) (a b : Bytes) (ha : c.bs < a.length) (hb : b ≠ []) (ops : List Op) :
    (Model.Flaky.ecbDec c fail p).run (new () t) (.write a :: .write b :: ops) =
      .error (.err .innerErr) :: (Model.Flaky.ecbDec c fail p).run (new () (t + 1)) (.write (a ++ b) :: ops) ∧
    (Model.Flaky.cbcDec c fail p iv).run (new iv t) (.write a :: .write b :: ops) =
      .error (.err .innerErr) :: (Model.Flaky.cbcDec c fail p iv).run (new iv (t + 1)) (.write (a ++ b) :: ops) ∧
    (Model.Flaky.cfbDec c fail p s iv).run (new iv t) (.write a :: .write b :: ops) =
      .error (.err .innerErr) :: (Model.Flaky.cfbDec c fail p s iv).run (new iv (t + 1)) (.write (a ++ b) :: ops) ∧
    (Model.Flaky.ofb c fail iv).run (new iv t) (.write a :: .write b :: ops) =
      .error (.err .innerErr) :: (Model.Flaky.ofb c fail iv).run (new iv (t + 1)) (.write (a ++ b) :: ops) := by
  have ha0 : a ≠ [] := by rintro rfl; simp at ha
  have hab : a ++ b ≠ [] := by simp [ha0]
  have key : ∀ (n : Nat) (served : Nat → Nat), 0 < served a.length →
      writeTwice (badCalls fail) n served (Spec.Flaky.St.new t) a = (.error (.err .innerErr), ⟨a, 0, t + 1, 0⟩) ∧
      writeTwice (badCalls fail) n served ⟨a, 0, t + 1, 0⟩ b = writeTwice (badCalls fail) n served (Spec.Flaky.St.new (t + 1)) (a ++ b) := by
    intro n served hsv
    constructor
    · rw [writeTwice, if_neg ha0]
      obtain ⟨w, hw⟩ : ∃ w, served a.length = w + 1 := ⟨_, (Nat.succ_pred_eq_of_pos hsv).symm⟩
      simp [Spec.Flaky.St.new, hw, first, badCalls, ht, twice]
    · rw [writeTwice, writeTwice, if_neg hb, if_neg hab]
      simp [Spec.Flaky.St.new]
  have k1 := key c.bs (fun l => (l - 1) / c.bs) (Nat.div_pos (by omega) h.pos)
  have k2 := key s (fun l => l / s) (Nat.div_pos (by omega) hs0)
  have k3 := key c.bs (fun l => l / c.bs) (Nat.div_pos (by omega) h.pos)
  refine ⟨?_, ?_, ?_, ?_⟩
  · rw [C115_ecb_decrypt h, C115_ecb_decrypt h]
    simp only [Rules.run, flakyBlockDec, k1.1, k1.2]
    rfl
  · rw [C115_cbc_decrypt h _ _ _ hiv, C115_cbc_decrypt h _ _ _ hiv]
    simp only [Rules.run, flakyBlockDec, k1.1, k1.2]
    rfl
  · rw [C115_cfb_decrypt h _ _ _ hs0 hs _ hiv, C115_cfb_decrypt h _ _ _ hs0 hs _ hiv]
    simp only [Rules.run, flakyCfbDec, k2.1, k2.2]
    rfl
  · rw [C115_ofb h _ _ hiv, C115_ofb h _ _ hiv]
    simp only [Rules.run, flakyOfb, k3.1, k3.2]
    rfl

private theorem badCalls_failsAt (k t : Nat) : badCalls (failsAt k) t = (t == k) := by
  unfold badCalls failsAt
  by_cases h : t = k <;> simp [h]

private theorem first_failsAt_none {k t w : Nat} (h : k < t ∨ t + w ≤ k) : first (badCalls (failsAt k)) t w = none := by
  rw [Model.Flaky.first_none]
  intro i hi
  rw [badCalls_failsAt]
  simp only [beq_eq_false_iff_ne, ne_eq]
  omega

private theorem first_failsAt_some {k t w : Nat} (h : t ≤ k) (h' : k < t + w) : first (badCalls (failsAt k)) t w = some (k - t) := by
  rw [Model.Flaky.first_some]
  refine ⟨by omega, by rw [badCalls_failsAt]; simp; omega, fun i hi => ?_⟩
  rw [badCalls_failsAt]
  simp only [beq_eq_false_iff_ne, ne_eq]
  omega

/-- The wish that a failed call on an encrypting stream can be dealt with: either by making the call again or by going on. Refuted for `write`: two blocks are
written and the second call of the cipher fails. If the client goes on, the stream has lost the second block; if it writes them again, the first block is
there twice. For all blocks. -/
theorem C115_write_recovery_refuted (h : Lawful c E D) (b₁ b₂ : Bytes) (h1 : b₁.length = c.bs) (h2 : b₂.length = c.bs) :
    (Model.Flaky.ecbEnc c (failsAt 1) (.defaultOf c)).run (new () 0) [.write (b₁ ++ b₂), .finish] =
      [.error (.err .innerErr), .ok (ecb E (blocksOf c.bs ((Padding.defaultOf c).padding b₁))).flatten] ∧
    (Model.Flaky.ecbEnc c (failsAt 1) (.defaultOf c)).run (new () 0) [.write (b₁ ++ b₂), .write (b₁ ++ b₂), .finish] =
      [.error (.err .innerErr), .ok [], .ok (ecb E (blocksOf c.bs ((Padding.defaultOf c).padding (b₁ ++ b₁ ++ b₂)))).flatten] := by
  have hp := h.pos
  have hb1 : b₁ ≠ [] := by rintro rfl; simp at h1; omega
  have hw : writeCut (badCalls (failsAt 1)) c.bs (Spec.Flaky.St.new 0) (b₁ ++ b₂) = (.error (.err .innerErr), ⟨b₁, 1, 2, 0⟩) := by
    have hl : (b₁ ++ b₂).length / c.bs = 2 := by rw [List.length_append, h1, h2, ← Nat.two_mul, Nat.mul_div_cancel _ hp]
    rw [writeCut, if_neg (by simp [hb1]), if_neg (by simp [Spec.Flaky.St.new])]
    simp only [Spec.Flaky.St.new, List.nil_append, hl]
    rw [first_failsAt_some (by omega) (by omega)]
    simp [← h1]
  have hpad : ∀ m : Bytes, ∀ e, m.length = c.bs * e → m ++ (Padding.defaultOf c).padding [] = (Padding.defaultOf c).padding m := by
    intro m e hm
    have hmod : m.length % c.bs = 0 := by rw [hm, Nat.mul_mod_right]
    have := padding_append_blocks (blocksOf_isBlocks c.bs m) (t := []) hp
    rw [List.append_nil, flatten_blocksOf hp hmod] at this
    exact this.symm
  have hfin : ∀ m : Bytes, ∀ e t, 2 ≤ t → m.length = c.bs * e → (finishPad (badCalls (failsAt 1)) c.bs (Padding.defaultOf c).padding
      (fun m => (ecb E (blocksOf c.bs m)).flatten) ⟨m, e, t, 0⟩).1 = .ok (ecb E (blocksOf c.bs ((Padding.defaultOf c).padding m))).flatten := by
    intro m e t ht hm
    simp only [finishPad]
    rw [List.take_of_length_le (Nat.le_of_eq hm), List.drop_eq_nil_of_le (Nat.le_of_eq hm), hpad m e hm, first_failsAt_none (by omega)]
    simp
  constructor
  · rw [C115_ecb_encrypt h]
    simp only [Rules.run, flakyEcbEnc, hw]
    rw [hfin b₁ 1 2 (by omega) (by omega)]
    rfl
  · rw [C115_ecb_encrypt h]
    have hw2 : writeCut (badCalls (failsAt 1)) c.bs ⟨b₁, 1, 2, 0⟩ (b₁ ++ b₂) = (.ok (), ⟨b₁ ++ b₁ ++ b₂, 3, 4, 0⟩) := by
      have hl : (b₁ ++ (b₁ ++ b₂)).length / c.bs = 3 := by
        rw [List.length_append, List.length_append, h1, h2, show c.bs + (c.bs + c.bs) = 3 * c.bs by omega, Nat.mul_div_cancel _ hp]
      rw [writeCut, if_neg (by simp [hb1]), if_neg (by simp only [h1, Nat.mul_one, Nat.sub_self]; omega)]
      simp only [hl]
      rw [first_failsAt_none (by omega)]
      simp
    simp only [Rules.run, flakyEcbEnc, hw, hw2]
    rw [hfin (b₁ ++ b₁ ++ b₂) 3 4 (by omega) (by simp only [List.length_append]; omega)]
    rfl

example : (Model.Flaky.ecbEnc (Toy.cipher 2) (failsAt 1) (.defaultOf (Toy.cipher 2))).run (new () 0) [.write [1, 2, 3, 4], .finish] =
    [.error (.err .innerErr), .ok [3, 2, 1, 0x81]] := by decide
example : (Model.Flaky.ecbEnc (Toy.cipher 2) (failsAt 1) (.defaultOf (Toy.cipher 2))).run (new () 0) [.write [1, 2, 3, 4], .write [1, 2, 3, 4], .finish] =
    [.error (.err .innerErr), .ok [], .ok [3, 2, 3, 2, 5, 4, 1, 0x81]] := by decide

/-- The wish refuted for `finish`: the call of the cipher fails once, and the client calls `finish` again, which succeeds. The message has been padded twice:
whoever decrypts gets the padded message. For every message. -/
theorem C115_finish_again_refuted (h : Lawful c E D) (m : Bytes) :
    ∃ ct, (Model.Flaky.ecbEnc c (failsAt (m.length / c.bs)) (.defaultOf c)).run (new () 0) [.write m, .finish, .finish] =
        [.ok [], .error (.err .innerErr), .ok ct] ∧
      ECB.decrypt c (.defaultOf c) ct = .ok ((Padding.defaultOf c).padding m) ∧ (Padding.defaultOf c).padding m ≠ m := by
  have hp := h.pos
  obtain ⟨bs, t, g1, g2, g3⟩ := exists_blocks hp m
  have hl : m.length / c.bs = bs.length := by rw [g3]; exact Model.Flaky.div_blocks hp g1 g2
  obtain ⟨pb, p1, p2, p3⟩ := pad_whole hp t
  obtain ⟨zb, z1, z2, z3⟩ := pad_whole hp []
  have hpm : (Padding.defaultOf c).padding m = bs.flatten ++ pb.flatten := by rw [g3, ← p3]; exact padding_append_blocks g1 g2
  have hB : IsBlocks c.bs (bs ++ (pb ++ zb)) := g1.append (p1.append z1)
  have hpb : 0 < pb.length := List.length_pos_iff.2 p2
  have hzb : 0 < zb.length := List.length_pos_iff.2 z2
  refine ⟨(ecb E (bs ++ (pb ++ zb))).flatten, ?_, ?_, ?_⟩
  · rw [C115_ecb_encrypt h, hl]
    have hw : (writeCut (badCalls (failsAt bs.length)) c.bs (Spec.Flaky.St.new 0) m) = (.ok (), ⟨m, bs.length, bs.length, 0⟩) := by
      rw [writeCut]
      split
      · rename_i hm
        subst hm
        have : bs.length = 0 := by simpa using hl.symm
        simp [Spec.Flaky.St.new, this]
      · rw [if_neg (by simp [Spec.Flaky.St.new])]
        simp only [Spec.Flaky.St.new, List.nil_append, hl, Nat.sub_zero, Nat.zero_add]
        rw [first_failsAt_none (by omega)]
    have hd : ∀ r, (bs.flatten ++ r).take (c.bs * bs.length) = bs.flatten ∧ (bs.flatten ++ r).drop (c.bs * bs.length) = r := fun r =>
      Model.Flaky.take_blocks g1 rfl r
    have hf1 : finishPad (badCalls (failsAt bs.length)) c.bs (Padding.defaultOf c).padding (fun m => (ecb E (blocksOf c.bs m)).flatten) ⟨m, bs.length, bs.length, 0⟩ =
        (.error (.err .innerErr), ⟨bs.flatten ++ pb.flatten, bs.length, bs.length + 1, 0⟩) := by
      simp only [finishPad]
      rw [g3, (hd t).1, (hd t).2, p3, ← List.flatten_append, (g1.append p1).length_flatten, Nat.mul_div_cancel_left _ hp, List.length_append, Nat.add_sub_cancel_left,
        first_failsAt_some (by omega) (by omega)]
      simp only [Nat.sub_self, Nat.add_zero, twice, List.flatten_append, (hd pb.flatten).1, (hd pb.flatten).2]
    have hf2 : (finishPad (badCalls (failsAt bs.length)) c.bs (Padding.defaultOf c).padding (fun m => (ecb E (blocksOf c.bs m)).flatten)
        ⟨bs.flatten ++ pb.flatten, bs.length, bs.length + 1, 0⟩).1 = .ok (ecb E (bs ++ (pb ++ zb))).flatten := by
      simp only [finishPad]
      have hpz : (Padding.defaultOf c).padding pb.flatten = pb.flatten ++ zb.flatten := by
        have := padding_append_blocks p1 (t := []) hp
        rw [List.append_nil] at this
        rw [← z3]; exact this
      rw [(hd pb.flatten).1, (hd pb.flatten).2, hpz, first_failsAt_none (by omega)]
      simp only [List.drop_zero]
      rw [show bs.flatten ++ (pb.flatten ++ zb.flatten) = (bs ++ (pb ++ zb)).flatten by simp, blocksOf_flatten' hp hB]
    simp only [Rules.run, flakyEcbEnc, hw, hf1, hf2]
    rfl
  · rw [ECB.decrypt_eq h (ECB.ecb_isBlocks h hB), ECB.ecb_inv h hB]
    rw [show (bs ++ (pb ++ zb)).flatten = (bs ++ pb).flatten ++ zb.flatten by simp, ← z3, Padding.defaultOf, padding_default]
    rw [List.nil_append, unpad_padded, List.flatten_append, ← hpm]
    rfl
  · intro he
    have := congrArg List.length he
    rw [Padding.defaultOf, length_padding_default] at this
    omega

example : (Model.Flaky.ecbEnc (Toy.cipher 2) (failsAt 0) (.defaultOf (Toy.cipher 2))).run (new () 0) [.write [7], .finish, .finish] =
    [.ok [], .error (.err .innerErr), .ok [0x81, 8, 1, 1, 1, 0x81]] := by decide

/-- On a decrypting stream the blocks served before the failure are decrypted twice: three blocks are written and the second call of the cipher fails. `finish`
is refused then; after another `write` the first block is there twice. For all blocks. -/
theorem C115_decrypt_twice_refuted (h : Lawful c E D) (b₁ b₂ b₃ b₄ : Bytes) (h1 : b₁.length = c.bs) (h2 : b₂.length = c.bs) (h3 : b₃.length = c.bs)
    (h4 : b₄.length = c.bs) :
    (Model.Flaky.ecbDec c (failsAt 1) .empty).run (new () 0) [.write (b₁ ++ b₂ ++ b₃), .finish, .write b₄, .finish] =
      [.error (.err .innerErr), .error (.err .invalidParameter), .ok [], .ok (D b₁ ++ D b₁ ++ D b₂ ++ D b₃ ++ D b₄)] := by
  have hp := h.pos
  have hb1 : b₁ ≠ [] := by rintro rfl; simp at h1; omega
  have hb4 : b₄ ≠ [] := by rintro rfl; simp at h4; omega
  have hB : IsBlocks c.bs [b₁, b₁, b₂, b₃, b₄] := .cons h1 (.cons h1 (.cons h2 (.cons h3 (.cons h4 .nil))))
  have hfl : b₁ ++ (b₁ ++ (b₂ ++ (b₃ ++ b₄))) = [b₁, b₁, b₂, b₃, b₄].flatten := by simp
  have hlen : ∀ k, (c.bs * (k + 1) - 1) / c.bs = k := fun k => by
    rw [Nat.mul_add, Nat.mul_one, Nat.add_sub_assoc hp, Nat.mul_add_div hp, Nat.div_eq_of_lt (by omega), Nat.add_zero]
  rw [C115_ecb_decrypt h]
  have e1 : writeTwice (badCalls (failsAt 1)) c.bs (fun l => (l - 1) / c.bs) (Spec.Flaky.St.new 0) (b₁ ++ b₂ ++ b₃) =
      (.error (.err .innerErr), ⟨b₁ ++ (b₁ ++ (b₂ ++ b₃)), 1, 2, 0⟩) := by
    rw [writeTwice, if_neg (by simp [hb1])]
    simp only [Spec.Flaky.St.new, List.nil_append]
    rw [show (b₁ ++ b₂ ++ b₃).length = c.bs * (2 + 1) by simp only [List.length_append]; omega, hlen 2, first_failsAt_some (by omega) (by omega)]
    simp only [twice, Nat.sub_zero, Nat.zero_add, Nat.mul_one, Nat.mul_zero, List.drop_zero, List.append_assoc]
    rw [← h1, List.take_left]
  have e2 : finishBlock (badCalls (failsAt 1)) c.bs Padding.empty.unpad (fun m => (ecb D (blocksOf c.bs m)).flatten) ⟨b₁ ++ (b₁ ++ (b₂ ++ b₃)), 1, 2, 0⟩ =
      (.error (.err .invalidParameter), ⟨b₁ ++ (b₁ ++ (b₂ ++ b₃)), 1, 3, 0⟩) := by
    rw [finishBlock, if_neg (by simp [badCalls_failsAt]), if_pos (by simp only [List.length_append]; omega)]
  have e3 : writeTwice (badCalls (failsAt 1)) c.bs (fun l => (l - 1) / c.bs) ⟨b₁ ++ (b₁ ++ (b₂ ++ b₃)), 1, 3, 0⟩ b₄ =
      (.ok (), ⟨b₁ ++ (b₁ ++ (b₂ ++ (b₃ ++ b₄))), 4, 6, 0⟩) := by
    rw [writeTwice, if_neg hb4]
    simp only
    rw [show (b₁ ++ (b₁ ++ (b₂ ++ b₃)) ++ b₄).length = c.bs * (4 + 1) by simp only [List.length_append]; omega, hlen 4, first_failsAt_none (by omega)]
    simp
  have e4 : (finishBlock (badCalls (failsAt 1)) c.bs Padding.empty.unpad (fun m => (ecb D (blocksOf c.bs m)).flatten) ⟨b₁ ++ (b₁ ++ (b₂ ++ (b₃ ++ b₄))), 4, 6, 0⟩).1 =
      .ok (D b₁ ++ D b₁ ++ D b₂ ++ D b₃ ++ D b₄) := by
    rw [finishBlock, if_neg (by simp [badCalls_failsAt]), if_neg (by simp only [List.length_append]; omega)]
    simp only [hfl, blocksOf_flatten' hp hB]
    simp [ecb, Padding.unpad, Padding.unpadding]
  simp only [Rules.run, flakyBlockDec, e1, e2, e3, e4]
  rfl

example : (Model.Flaky.ecbDec (Toy.cipher 2) (failsAt 1) .empty).run (new () 0) [.write [3, 2, 5, 4, 7, 6], .finish, .write [9, 8], .finish] =
    [.error (.err .innerErr), .error (.err .invalidParameter), .ok [], .ok [1, 2, 1, 2, 3, 4, 5, 6, 7, 8]] := by decide

/-- OFB: after a `write` that failed, `finish` succeeds and returns one block. The rest of the message is gone. For every message longer than a block. -/
theorem C115_ofb_truncated_refuted (h : Lawful c E D) (iv : Bytes) (hiv : iv.length = c.bs) (m : Bytes) (hm : c.bs < m.length) :
    (Model.Flaky.ofb c (failsAt 0) iv).run (new iv 0) [.write m, .finish] = [.error (.err .innerErr), .ok (ofb E c.bs iv (m.take c.bs))] := by
  have hp := h.pos
  have h0 : m ≠ [] := by rintro rfl; simp at hm
  have hd : 0 < m.length / c.bs := Nat.div_pos (by omega) hp
  rw [C115_ofb h _ _ hiv]
  have e1 : writeTwice (badCalls (failsAt 0)) c.bs (fun l => l / c.bs) (Spec.Flaky.St.new 0) m = (.error (.err .innerErr), ⟨m, 0, 1, 0⟩) := by
    rw [writeTwice, if_neg h0]
    simp only [Spec.Flaky.St.new, List.nil_append, Nat.sub_zero]
    rw [first_failsAt_some (by omega) (by omega)]
    simp [twice]
  have e2 : (finishKey (badCalls (failsAt 0)) c.bs (ofb E c.bs iv) ⟨m, 0, 1, 0⟩).1 = .ok (ofb E c.bs iv (m.take c.bs)) := by
    rw [finishKey, if_neg (by simp [h0]), if_neg (by simp [badCalls_failsAt])]
    simp
  simp only [Rules.run, flakyOfb, e1, e2]
  rfl

example : (Model.Flaky.ofb (Toy.cipher 2) (failsAt 0) [1, 2]).run (new [1, 2] 0) [.write [0, 0, 0, 0, 0], .finish] =
    [.error (.err .innerErr), .ok [3, 2]] := by decide

/-- CTR: a call that fails uses up a counter block. Here the first one fails and the client goes on: the message is encrypted from the second counter block on.
For every message of a block or more. -/
theorem C115_ctr_skips_refuted {κ : Type} {ops : CounterOps κ} (h : Lawful c E D) (k : κ) (v : Nat → Bytes)
    (hv : ∀ i, ops.value k i = some (v i) ∧ c.bs ≤ (v i).length) (hr : ∀ j, ops.reset (ops.after k j) = k) (m : Bytes) (hm : c.bs ≤ m.length) :
    (Model.Flaky.ctr c (failsAt 0) ops).run (new k 0) [.write m, .finish] =
      [.error (.err .innerErr), .ok (ctr E c.bs (fun i => (v (i + 1)).take c.bs) m)] := by
  have hp := h.pos
  have h0 : m ≠ [] := by rintro rfl; simp at hm; omega
  have hd : 0 < m.length / c.bs := Nat.div_pos hm hp
  rw [C115_ctr h _ _ v hv hr]
  have e1 : writeTwice (badCalls (failsAt 0)) c.bs (fun l => l / c.bs) (Spec.Flaky.St.new 0) m = (.error (.err .innerErr), ⟨m, 0, 1, 0⟩) := by
    rw [writeTwice, if_neg h0]
    simp only [Spec.Flaky.St.new, List.nil_append, Nat.sub_zero]
    rw [first_failsAt_some (by omega) (by omega)]
    simp [twice]
  have e2 : ∀ w, served (badCalls (failsAt 0)) 0 (1 + w) = (List.range w).map (· + 1) := by
    intro w
    rw [Model.Flaky.served_ok _ (Nat.zero_le 1) w (fun i hi => by rw [badCalls_failsAt]; simp)]
    have : served (badCalls (failsAt 0)) 0 1 = [] := by decide
    rw [this, List.nil_append]
    congr 1
    funext i
    omega
  simp only [ctrRun, e1]
  rw [first_failsAt_none (by omega)]
  simp only [keyed, e2, Nat.sub_zero, List.drop_zero, Except.map]
  congr 3
  rw [ctr, streamXor, keystream, List.map_map]
  rfl

example : (Model.Flaky.ctr (Toy.cipher 2) (failsAt 0) DefaultCounter.ops).run (new ⟨16, [0, 5], none⟩ 0) [.write [0, 0, 0], .finish] =
    [.error (.err .innerErr), .ok [7, 1, 8]] := by decide

/-- CBC: a `write` completes a block and the call of the cipher fails; the client goes on with `finish`, which succeeds. The padding block is chained to the IV and
not to the block before it. For every block. -/
theorem C115_cbc_chain_refuted (h : Lawful c E D) (iv : Bytes) (hiv : iv.length = c.bs) (b : Bytes) (hb : b.length = c.bs) (h2 : 1 < c.bs) :
    (Model.Flaky.cbcEnc c (failsAt 0) (.defaultOf c) iv).run (new iv 0) [.write b, .finish] =
      [.error (.err .innerErr), .ok (E (xorBytes b iv) ++ E (xorBytes ((Padding.defaultOf c).padding []) iv))] := by
  have hp := h.pos
  have h0 : b ≠ [] := by rintro rfl; simp at hb; omega
  have := C115_cbc_encrypt_to_finish h (failsAt 0) (fun t g hg d => by unfold failsAt at hg; split at hg <;> cases hg; rfl) iv hiv 0 [.write b]
    (by simp)
  rw [List.singleton_append] at this
  rw [this]
  have e1 : writeCut (badCalls (failsAt 0)) c.bs (Spec.Flaky.St.new 0) b = (.error (.err .innerErr), ⟨b, 0, 1, 0⟩) := by
    rw [writeCut, if_neg h0, if_neg (by simp [Spec.Flaky.St.new])]
    simp only [Spec.Flaky.St.new, List.nil_append, hb, Nat.div_self hp, Nat.sub_zero]
    rw [first_failsAt_some (by omega) (by omega)]
    simp [← hb]
  have hz : ((Padding.defaultOf c).padding []).length = c.bs := by
    rw [Padding.defaultOf, padded_tail_length (by simpa using hp)]
    simp; omega
  have hpz : (Padding.defaultOf c).padding b = b ++ (Padding.defaultOf c).padding [] := by
    have := padding_append_blocks (IsBlocks.cons hb .nil) (t := []) hp
    simpa [Padding.defaultOf] using this
  have hB1 : blocksOf c.bs b = [b] := by have := blocksOf_flatten' hp (IsBlocks.cons hb .nil); simpa using this
  have hB2 : blocksOf c.bs ((Padding.defaultOf c).padding []) = [(Padding.defaultOf c).padding []] := by
    have := blocksOf_flatten' hp (IsBlocks.cons hz .nil); simpa using this
  have e2 : (finishChain (badCalls (failsAt 0)) c.bs (Padding.defaultOf c).padding (fun m => (cbcEnc E iv (blocksOf c.bs m)).flatten)
      (fun m => ((blocksOf c.bs m).map fun b => E (xorBytes b iv)).flatten) ⟨b, 0, 1, 0⟩).1 =
      .ok (E (xorBytes b iv) ++ E (xorBytes ((Padding.defaultOf c).padding []) iv)) := by
    simp only [finishChain, Nat.mul_zero, List.drop_zero, List.take_zero, List.nil_append]
    rw [first_failsAt_none (by omega), hpz]
    simp only
    rw [show (b ++ (Padding.defaultOf c).padding []).take c.bs = b by rw [← hb, List.take_left],
      show (b ++ (Padding.defaultOf c).padding []).drop c.bs = (Padding.defaultOf c).padding [] by rw [← hb, List.drop_left], hB1, hB2]
    simp [cbcEnc, xorBytes_comm]
  simp only [Rules.run, flakyCbcEnc, e1, e2]
  rfl

/-- What the receiver makes of it, for the block `[7, 8]` under the toy cipher with IV `[1, 2]`: the padding is not found. -/
example : (Model.Flaky.cbcEnc (Toy.cipher 2) (failsAt 0) (.defaultOf (Toy.cipher 2)) [1, 2]).run (new [1, 2] 0) [.write [7, 8], .finish] =
      [.error (.err .innerErr), .ok [11, 7, 3, 0x82]] ∧
    CBC.decrypt (Toy.cipher 2) (.defaultOf (Toy.cipher 2)) [1, 2] [11, 7, 3, 0x82] = .error (.err .unpaddingNotMatch) := by decide

/-- CBC encryption over a cipher whose failing call clears its destination: the chaining value is gone. The stream refuses every later block, until it is reset; and a failing
call that leaves other bytes there makes the stream go on from these. -/
theorem C115_cbc_spoiled_refuted :
    (Model.Flaky.cbcEnc (Toy.cipher 2) (fun t => if t = 1 then some (fun _ => []) else none) .empty [1, 2]).run (new [1, 2] 0)
      [.write [1, 2, 3, 4], .write [5, 6], .reset, .write [5, 6], .finish] =
      [.error (.err .innerErr), .error (.err .invalidParameter), .ok [], .ok [], .ok [5, 5]] ∧
    (Model.Flaky.cbcEnc (Toy.cipher 2) (fun t => if t = 1 then some (fun _ => [0, 0]) else none) .empty [1, 2]).run (new [1, 2] 0)
      [.write [1, 2, 3, 4], .write [5, 6], .finish] = [.error (.err .innerErr), .ok [], .ok ([1, 1] ++ [7, 6])] ∧
    cbcEnc Toy.E [1, 2] [[1, 2], [5, 6]] = [[1, 1], [8, 5]] := by
  refine ⟨by decide, by decide, by decide⟩

/-- After a `finish` that failed, the next `write` may run into the overflow of `block_len - data.len()` (a panic in a debug build). -/
theorem C115_write_panics_refuted :
    (Model.Flaky.ecbEnc (Toy.cipher 2) (failsAt 0) (.defaultOf (Toy.cipher 2))).run (new () 0) [.write [7], .finish, .write [8]] =
      [.ok [], .error (.err .innerErr), .error .panic] := by
  decide

private theorem run_reset {σ : Type} {o : Model.Flaky.Obj σ} {s0 : σ} (hr : ∀ s, o.reset s = new s0 s.calls) (ops ops' : List Op) (s : Model.Flaky.St σ) :
    ∃ t, o.run s (ops ++ .reset :: ops') = o.run s ops ++ .ok [] :: o.run (new s0 t) ops' := by
  induction ops generalizing s with
  | nil => exact ⟨s.calls, by simp [Model.Flaky.Obj.run, hr]⟩
  | cons op ops ih =>
    cases op with
    | write d => obtain ⟨t, ht⟩ := ih (o.write s d).2; exact ⟨t, by simp [Model.Flaky.Obj.run, ht]⟩
    | draw => obtain ⟨t, ht⟩ := ih { (o.write s []).2 with pond := [] }; exact ⟨t, by simp [Model.Flaky.Obj.run, ht]⟩
    | finish => obtain ⟨t, ht⟩ := ih (o.finish s).2; exact ⟨t, by simp [Model.Flaky.Obj.run, ht]⟩
    | reset => obtain ⟨t, ht⟩ := ih (o.reset s); exact ⟨t, by simp [Model.Flaky.Obj.run, ht]⟩

/-- C115: the way out of all of this: after `reset` the stream is a new one, whatever went wrong before (for CTR see `C115_ctr`). -/
theorem C115_reset (fail : Sched) (p : Padding) (iv : Bytes) (n : Nat) (ops ops' : List Op) (s : Model.Flaky.St Bytes) (u : Model.Flaky.St Unit) :
    (∃ t, (Model.Flaky.ecbEnc c fail p).run u (ops ++ .reset :: ops') = (Model.Flaky.ecbEnc c fail p).run u ops ++ .ok [] :: (Model.Flaky.ecbEnc c fail p).run (new () t) ops') ∧
    (∃ t, (Model.Flaky.ecbDec c fail p).run u (ops ++ .reset :: ops') = (Model.Flaky.ecbDec c fail p).run u ops ++ .ok [] :: (Model.Flaky.ecbDec c fail p).run (new () t) ops') ∧
    (∃ t, (Model.Flaky.cbcEnc c fail p iv).run s (ops ++ .reset :: ops') =
      (Model.Flaky.cbcEnc c fail p iv).run s ops ++ .ok [] :: (Model.Flaky.cbcEnc c fail p iv).run (new iv t) ops') ∧
    (∃ t, (Model.Flaky.cbcDec c fail p iv).run s (ops ++ .reset :: ops') =
      (Model.Flaky.cbcDec c fail p iv).run s ops ++ .ok [] :: (Model.Flaky.cbcDec c fail p iv).run (new iv t) ops') ∧
    (∃ t, (Model.Flaky.cfbEnc c fail p n iv).run s (ops ++ .reset :: ops') =
      (Model.Flaky.cfbEnc c fail p n iv).run s ops ++ .ok [] :: (Model.Flaky.cfbEnc c fail p n iv).run (new iv t) ops') ∧
    (∃ t, (Model.Flaky.cfbDec c fail p n iv).run s (ops ++ .reset :: ops') =
      (Model.Flaky.cfbDec c fail p n iv).run s ops ++ .ok [] :: (Model.Flaky.cfbDec c fail p n iv).run (new iv t) ops') ∧
    ∃ t, (Model.Flaky.ofb c fail iv).run s (ops ++ .reset :: ops') = (Model.Flaky.ofb c fail iv).run s ops ++ .ok [] :: (Model.Flaky.ofb c fail iv).run (new iv t) ops' :=
  ⟨run_reset (fun _ => rfl) _ _ _, run_reset (fun _ => rfl) _ _ _, run_reset (fun _ => rfl) _ _ _, run_reset (fun _ => rfl) _ _ _, run_reset (fun _ => rfl) _ _ _,
    run_reset (fun _ => rfl) _ _ _, run_reset (fun _ => rfl) _ _ _⟩

end Verif.Props
