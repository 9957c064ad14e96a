import Verif.Model.P224Mem
import Verif.Proof.Interference

/-! P-224 on a memory against P-224 on values -/

namespace Verif.Model.P224Mem
open Verif.Model.CurveMem
open Verif.Model.Elliptic (Big)
open Verif.Model.P224
open Verif.Model.RSA (natBytes)

/-! ### Lengths -/

theorem length_reduceLarge (a : List D) : (reduceLarge a).length = 8 := by
  simp only [reduceLarge, List.length_set, List.foldl_cons, List.foldl_nil, largeCarry, List.length_cons, List.length_append, List.length_nil]

theorem length_mul (a b : Fe) : (mul a b).length = 8 := length_reduceLarge _
theorem length_square (a : Fe) : (square a).length = 8 := length_reduceLarge _

theorem length_chainFrom : ∀ (l : Fe) (x : W), (chainFrom x l).length = l.length + 1
  | [], _ => rfl
  | y :: l, x => by rw [chainFrom, List.length_cons, length_chainFrom l, List.length_cons]

theorem length_chain : ∀ l : Fe, (chain l).length = l.length
  | [] => rfl
  | x :: l => by rw [chain, length_chainFrom, List.length_cons]

theorem length_reduce (a : Fe) : (reduce a).length = a.length := by
  simp only [reduce, splitTop, subTop, List.length_set, length_chain]

theorem length_carryDown (a : Fe) : (carryDown a).length = a.length := by
  simp only [carryDown, List.foldl_cons, List.foldl_nil, downStep, List.length_set]

theorem length_contract (a : Fe) (h : a.length = 8) : (contract a).length = 8 := by
  simp only [contract, finalSub, splitTop, subTop, List.length_set, length_carryDown, List.length_append, length_chain, List.length_take, List.length_drop, h]
  rfl

theorem length_fromBigint (n : Int) : (fromBigint n).length = 8 := rfl

theorem length_zipWith {f : W → W → W} {a b : Fe} (ha : a.length = 8) (hb : b.length = 8) : (List.zipWith f a b).length = 8 := by
  rw [List.length_zipWith, ha, hb]; rfl

/-! ### One operation -/

/-- What each operation writes, reads and computes. -/
def sem : Sem Op where
  dst
    | .square o _ | .mul o _ _ | .add o _ _ | .sub o _ _ | .reduce o | .contract o _ | .copy o _ _ | .shl o _ _ | .triple o | .times3 o => o
  src
    | .square _ a | .contract _ a | .shl _ a _ | .reduce a | .triple a | .times3 a => [a]
    | .mul _ a b | .add _ a b | .sub _ a b => [a, b]
    | .copy o a _ => [o, a]
  val
    | .square _ a, r => square (r a)
    | .mul _ a b, r => mul (r a) (r b)
    | .add _ a b, r => add (r a) (r b)
    | .sub _ a b, r => sub (r a) (r b)
    | .reduce a, r => reduce (r a)
    | .contract _ a, r => contract (r a)
    | .copy o a c, r => copyConditional (r o) (r a) c
    | .shl _ a k, r => shl (r a) k
    | .triple a, r => (r a).map fun (x : W) => x + (x <<< 1)
    | .times3 a, r => (r a).map (· * 3#32)
  congr op r s h := by
    cases op <;> simp only [List.mem_cons, List.not_mem_nil, or_false, forall_eq_or_imp, forall_eq] at h <;> simp only [h]

theorem length_val (op : Op) (r : Nat → Fe) (h : ∀ n, (r n).length = 8) : (sem.val op r).length = 8 := by
  cases op <;> simp only [sem]
  · exact length_square _
  · exact length_mul _ _
  · exact length_zipWith (h _) (h _)
  · exact length_zipWith (length_zipWith (h _) rfl) (h _)
  · rw [length_reduce, h]
  · exact length_contract _ (h _)
  · exact length_zipWith (h _) (h _)
  · rw [shl, List.length_map, h]
  · rw [List.length_map, h]
  · rw [List.length_map, h]

theorem reduceLargeTo_eq {m : Mem} (hm : WF 8 m) (out : Addr) (a : List D) : reduceLargeTo out a m = m.put out (reduceLarge a) := by
  obtain ⟨o0, o1, o2, o3, o4, o5, o6, o7, ho⟩ : ∃ o0 o1 o2 o3 o4 o5 o6 o7, m out = [o0, o1, o2, o3, o4, o5, o6, o7] := by
    have := hm out
    match h : m out with
    | [o0, o1, o2, o3, o4, o5, o6, o7] => exact ⟨_, _, _, _, _, _, _, _, rfl⟩
    | [] | [_] | [_, _] | [_, _, _] | [_, _, _, _] | [_, _, _, _, _] | [_, _, _, _, _, _] | [_, _, _, _, _, _, _] =>
      rw [h] at this; simp at this
    | _ :: _ :: _ :: _ :: _ :: _ :: _ :: _ :: _ :: _ => rw [h] at this; simp at this
  have hs : ∀ i v, m.setLimb out i v = m.put out ((m out).set i v) := fun _ _ => rfl
  simp only [reduceLargeTo, reduceLarge]
  generalize (List.foldl elim (addP63 a) [14, 13, 12, 11, 10, 9, 8]).set 8 0#64 = t
  simp only [List.foldl_cons, List.foldl_nil, largeCarryTo, largeCarry, hs, put_setLimb, Mem.limb, put_same, ho]
  rfl

theorem subTo_eq {m : Mem} (hm : WF 8 m) (out a b : Addr) : subTo out a b m = m.put out (sub (m a) (m b)) := by
  rw [subTo, loop2_eq hm, sub]
  congr 1
  have h1 := ofFn_zipWith (n := 8) (fun x y => x + y) (hm a) (b := zeroModP31) rfl
  have h2 := ofFn_zipWith (n := 8) (fun x y => x - y) (a := List.zipWith (· + ·) (m a) zeroModP31) (length_zipWith (hm a) rfl) (hm b)
  rw [← h2]
  congr 1
  funext i
  congr 1
  rw [← h1, List.getD_eq_getElem?_getD (l := List.ofFn _), List.getElem?_eq_getElem (by simp)]
  simp only [List.getElem_ofFn, Option.getD_some]

theorem exec_op {m : Mem} (hm : WF 8 m) (ρ : Nat → Addr) (op : Op) : op.exec ρ m = m.put (ρ (sem.dst op)) (sem.val op fun n => m (ρ n)) := by
  cases op <;> simp only [Op.exec, sem]
  · exact reduceLargeTo_eq hm _ _
  · exact reduceLargeTo_eq hm _ _
  · rw [addTo, loop2_eq hm, ofFn_zipWith (fun x y => x + y) (hm _) (hm _)]; rfl
  · exact subTo_eq hm _ _ _
  · rfl
  · rw [contractTo, loop1_eq hm, ofFn_map (fun y => y) (hm _)]
    simp only [put_same, put_put, List.map_id']
  · rename_i o a c
    rw [copyTo, loop1_eq hm, ofFn_zipWith (fun x y => x ^^^ ((x ^^^ y) &&& asr31 (c <<< 31))) (hm _) (hm _)]; rfl
  · rw [shlTo, loop1_eq hm, ofFn_map (fun y : W => y <<< _) (hm _)]; rfl
  · rw [tripleAt, loop1_eq hm, ofFn_map (fun y : W => y + (y <<< 1)) (hm _)]
  · rw [times3At, loop1_eq hm, ofFn_map (fun y : W => y * 3#32) (hm _)]

theorem exec_eq (ρ : Nat → Addr) : ∀ (ops : List Op) (m : Mem), WF 8 m → exec ρ ops m = sem.mem ρ ops m ∧ WF 8 (exec ρ ops m)
  | [], m, h => ⟨rfl, h⟩
  | op :: ops, m, h => by
    have h1 := exec_op h ρ op
    have h2 : WF 8 (op.exec ρ m) := h1 ▸ h.put _ (length_val op _ fun n => h _)
    obtain ⟨h3, h4⟩ := exec_eq ρ ops _ h2
    refine ⟨?_, h4⟩
    show exec ρ ops (op.exec ρ m) = sem.mem ρ ops _
    rw [h3, h1]

theorem exec_wf {ρ : Nat → Addr} {ops : List Op} {m : Mem} (h : WF 8 m) : WF 8 (exec ρ ops m) := (exec_eq ρ ops m h).2

theorem exec_sim {ρ : Nat → Addr} {ops : List Op} {m : Mem} (hm : WF 8 m) (out : List Nat) (r : Nat → Fe)
    (hc : ∀ p ∈ sem.clash ops out, ρ p.1 ≠ ρ p.2) (h : ∀ n ∈ sem.live ops out, m (ρ n) = r n) : ∀ n ∈ out, exec ρ ops m (ρ n) = sem.regs ops r n := by
  rw [(exec_eq ρ ops m hm).1]
  exact sem.sim ρ ops out m r hc h

theorem exec_frame {ρ : Nat → Addr} {ops : List Op} {m : Mem} (hm : WF 8 m) (p : Addr) (h : ∀ op ∈ ops, ρ (sem.dst op) ≠ p) : exec ρ ops m p = m p := by
  rw [(exec_eq ρ ops m hm).1]
  exact sem.frame ρ p ops m h

/-! ### Names and addresses -/

/-- A call with parameters in frames below `d`: the outputs are those of the program on separate registers. -/
theorem call_ok {ps : List Addr} {d : Nat} {ops : List Op} {m : Mem} (hm : WF 8 m) (hp : ∀ p ∈ ps, p.1 < d) (outs : List Nat) (sep : List (Nat × Nat))
    (hc : ∀ p ∈ sem.clash ops outs, (p.1 ≠ p.2 ∧ (ps.length ≤ p.1 ∨ ps.length ≤ p.2)) ∨ p ∈ sep)
    (hs : ∀ p ∈ sep, CurveMem.bind ps d p.1 ≠ CurveMem.bind ps d p.2) (n : Nat) (hn : n ∈ outs) :
    exec (CurveMem.bind ps d) ops m (CurveMem.bind ps d n) = sem.regs ops (fun n => m (CurveMem.bind ps d n)) n := by
  refine exec_sim hm outs _ (fun p h => ?_) (fun _ _ => rfl) n hn
  rcases hc p h with ⟨h1, h2⟩ | h1
  · exact bind_sep hp h1 h2
  · exact hs p h1

/-- A call leaves the arrays of the frames below `d` alone, except for its outputs. -/
theorem call_frame {ps : List Addr} {d : Nat} {ops : List Op} {m : Mem} (hm : WF 8 m) (outs : List Nat)
    (hd : ∀ n ∈ ops.map sem.dst, n ∈ outs ∨ ps.length ≤ n) (q : Addr) (hq : q.1 < d) (ho : ∀ n ∈ outs, q ≠ CurveMem.bind ps d n) :
    exec (CurveMem.bind ps d) ops m q = m q := by
  refine exec_frame hm q fun op hop he => ?_
  rcases hd _ (List.mem_map_of_mem hop) with h | h
  · exact ho _ h he.symm
  · rw [bind_local h] at he
    rw [← he] at hq
    exact Nat.lt_irrefl _ hq

theorem wf_enter {m : Mem} (hm : WF 8 m) (d : Nat) : WF 8 (m.enter d zero) := hm.enter d rfl

/-! ### Doubling -/

theorem double_regs (r : Nat → Fe) : (sem.regs doubleOps r 0, sem.regs doubleOps r 1, sem.regs doubleOps r 2) = doubleJacobian (r 3) (r 4) (r 5) := by
  simp only [Sem.regs, doubleOps, List.foldl_cons, List.foldl_nil, sem, upd, Nat.reduceEqDiff, if_true, if_false, OfNat.ofNat_ne_zero, OfNat.zero_ne_ofNat, Nat.zero_ne_one, Nat.one_ne_zero, doubleJacobian]

theorem double_clash : ∀ p ∈ sem.clash doubleOps [0, 1, 2], (p.1 ≠ p.2 ∧ (6 ≤ p.1 ∨ 6 ≤ p.2)) ∨ p ∈ [(0, 2), (1, 0), (1, 2)] := by decide +kernel

theorem double_live : ∀ n ∈ sem.live doubleOps [0, 1, 2], n ∈ [3, 4, 5] := by decide +kernel

theorem double_dst : ∀ n ∈ doubleOps.map sem.dst, n ∈ [0, 1, 2] ∨ 6 ≤ n := by decide +kernel

theorem doubleTo_wf {m : Mem} (hm : WF 8 m) (d : Nat) (x3 y3 z3 x1 y1 z1 : Addr) : WF 8 (doubleTo d x3 y3 z3 x1 y1 z1 m) := exec_wf (wf_enter hm d)

/-- The doubling, with outputs that may be inputs. -/
theorem doubleTo_ok {m : Mem} (hm : WF 8 m) {d : Nat} {x3 y3 z3 x1 y1 z1 : Addr} (hp : ∀ p ∈ [x3, y3, z3, x1, y1, z1], p.1 < d)
    (hxy : x3 ≠ y3) (hxz : x3 ≠ z3) (hyz : y3 ≠ z3) :
    (doubleTo d x3 y3 z3 x1 y1 z1 m x3, doubleTo d x3 y3 z3 x1 y1 z1 m y3, doubleTo d x3 y3 z3 x1 y1 z1 m z3) = doubleJacobian (m x1) (m y1) (m z1) := by
  have hs : ∀ p ∈ [(0, 2), (1, 0), (1, 2)], CurveMem.bind [x3, y3, z3, x1, y1, z1] d p.1 ≠ CurveMem.bind [x3, y3, z3, x1, y1, z1] d p.2 := by
    simp only [List.forall_mem_cons, List.not_mem_nil, false_implies, implies_true, and_true]
    exact ⟨hxz, hxy.symm, hyz⟩
  have h := call_ok (wf_enter hm d) hp [0, 1, 2] _ double_clash hs
  have h0 := h 0 (by decide)
  have h1 := h 1 (by decide)
  have h2 := h 2 (by decide)
  have hr := double_regs fun n => m.enter d zero (CurveMem.bind [x3, y3, z3, x1, y1, z1] d n)
  rw [← h0, ← h1, ← h2] at hr
  refine Eq.trans hr ?_
  have e : ∀ q ∈ [x3, y3, z3, x1, y1, z1], m.enter d zero q = m q := fun q hq => enter_ne _ _ _ (Nat.ne_of_lt (hp q hq))
  show doubleJacobian (m.enter d zero x1) (m.enter d zero y1) (m.enter d zero z1) = _
  rw [e x1 (by simp), e y1 (by simp), e z1 (by simp)]

theorem doubleTo_frame {m : Mem} (hm : WF 8 m) {d : Nat} {x3 y3 z3 x1 y1 z1 q : Addr} (hq : q.1 < d) (hx : q ≠ x3) (hy : q ≠ y3) (hz : q ≠ z3) :
    doubleTo d x3 y3 z3 x1 y1 z1 m q = m q := by
  refine (call_frame (wf_enter hm d) [0, 1, 2] double_dst q hq ?_).trans (enter_ne _ _ _ (Nat.ne_of_lt hq))
  simp only [List.forall_mem_cons, List.not_mem_nil, false_implies, implies_true, and_true]
  exact ⟨hx, hy, hz⟩

/-! ### Addition -/

theorem add_regs (r : Nat → Fe) : addJacobian (r 3) (r 4) (r 5) (r 6) (r 7) (r 8) =
    if isZero (sem.regs addOps1 r 15) = 1#32 ∧ isZero (sem.regs (addOps1 ++ addOps2) r 18) = 1#32 ∧ isZero (r 5) = 0#32 ∧ isZero (r 8) = 0#32
    then doubleJacobian (r 3) (r 4) (r 5)
    else (sem.regs (addOps1 ++ addOps2 ++ addOps3 (isZero (r 5)) (isZero (r 8))) r 0,
      sem.regs (addOps1 ++ addOps2 ++ addOps3 (isZero (r 5)) (isZero (r 8))) r 1,
      sem.regs (addOps1 ++ addOps2 ++ addOps3 (isZero (r 5)) (isZero (r 8))) r 2) := by
  simp only [Sem.regs, addOps1, addOps2, addOps3, List.cons_append, List.nil_append, List.foldl_cons, List.foldl_nil, sem, upd, Nat.reduceEqDiff, if_true,
    if_false, OfNat.ofNat_ne_zero, OfNat.zero_ne_ofNat, Nat.zero_ne_one, Nat.one_ne_zero, addJacobian]

/-- The names that the addition may not have at the address of an output: all other parameters. -/
def addSep : List (Nat × Nat) := [0, 1, 2].flatMap fun o => (List.range 9).filterMap fun i => if i = o then none else some (o, i)

theorem add_clash1 : ∀ p ∈ sem.clash addOps1 [15], (p.1 ≠ p.2 ∧ (9 ≤ p.1 ∨ 9 ≤ p.2)) ∨ p ∈ ([] : List (Nat × Nat)) := by decide +kernel
theorem add_clash2 : ∀ p ∈ sem.clash (addOps1 ++ addOps2) [18], (p.1 ≠ p.2 ∧ (9 ≤ p.1 ∨ 9 ≤ p.2)) ∨ p ∈ ([] : List (Nat × Nat)) := by decide +kernel
theorem add_clash3 (a b : W) : ∀ p ∈ sem.clash (addOps1 ++ addOps2 ++ addOps3 a b) [0, 1, 2], (p.1 ≠ p.2 ∧ (9 ≤ p.1 ∨ 9 ≤ p.2)) ∨ p ∈ addSep := by
  have : sem.clash (addOps1 ++ addOps2 ++ addOps3 a b) [0, 1, 2] = sem.clash (addOps1 ++ addOps2 ++ addOps3 0 0) [0, 1, 2] := rfl
  rw [this]
  decide +kernel
theorem add_dst2 : ∀ n ∈ (addOps1 ++ addOps2).map sem.dst, n ∈ ([] : List Nat) ∨ 9 ≤ n := by decide +kernel
theorem add_dst3 (a b : W) : ∀ n ∈ (addOps1 ++ addOps2 ++ addOps3 a b).map sem.dst, n ∈ [0, 1, 2] ∨ 9 ≤ n := by
  have : (addOps1 ++ addOps2 ++ addOps3 a b).map sem.dst = (addOps1 ++ addOps2 ++ addOps3 0 0).map sem.dst := rfl
  rw [this]
  decide +kernel

theorem exec_append (ρ : Nat → Addr) (a b : List Op) (m : Mem) : exec ρ b (exec ρ a m) = exec ρ (a ++ b) m := by
  unfold exec
  rw [List.foldl_append]

theorem addJacTo_eq (d : Nat) (x3 y3 z3 x1 y1 z1 x2 y2 z2 : Addr) (m : Mem) :
    addJacTo d x3 y3 z3 x1 y1 z1 x2 y2 z2 m =
      let ρ := CurveMem.bind [x3, y3, z3, x1, y1, z1, x2, y2, z2] d
      let m := m.enter d zero
      if isZero (exec ρ addOps1 m (ρ 15)) = 1#32 ∧ isZero (exec ρ (addOps1 ++ addOps2) m (ρ 18)) = 1#32 ∧ isZero (m z1) = 0#32 ∧ isZero (m z2) = 0#32
      then doubleTo (d + 1) x3 y3 z3 x1 y1 z1 (exec ρ (addOps1 ++ addOps2) m)
      else exec ρ (addOps1 ++ addOps2 ++ addOps3 (isZero (m z1)) (isZero (m z2))) m := by
  simp only [addJacTo, exec_append, List.append_assoc]

theorem addJacTo_wf {m : Mem} (hm : WF 8 m) (d : Nat) (x3 y3 z3 x1 y1 z1 x2 y2 z2 : Addr) : WF 8 (addJacTo d x3 y3 z3 x1 y1 z1 x2 y2 z2 m) := by
  rw [addJacTo_eq]
  dsimp only
  split
  · exact doubleTo_wf (exec_wf (wf_enter hm d)) _ _ _ _ _ _ _
  · exact exec_wf (wf_enter hm d)

theorem addJacTo_ok {m : Mem} (hm : WF 8 m) {d : Nat} {x3 y3 z3 x1 y1 z1 x2 y2 z2 : Addr} (hp : ∀ p ∈ [x3, y3, z3, x1, y1, z1, x2, y2, z2], p.1 < d)
    (hxy : x3 ≠ y3) (hxz : x3 ≠ z3) (hyz : y3 ≠ z3) (hi : ∀ p ∈ [x1, y1, z1, x2, y2, z2], p ≠ x3 ∧ p ≠ y3 ∧ p ≠ z3) :
    (addJacTo d x3 y3 z3 x1 y1 z1 x2 y2 z2 m x3, addJacTo d x3 y3 z3 x1 y1 z1 x2 y2 z2 m y3, addJacTo d x3 y3 z3 x1 y1 z1 x2 y2 z2 m z3) =
      addJacobian (m x1) (m y1) (m z1) (m x2) (m y2) (m z2) := by
  have hw := wf_enter hm d
  have e : ∀ q ∈ [x3, y3, z3, x1, y1, z1, x2, y2, z2], m.enter d zero q = m q := fun q hq => enter_ne _ _ _ (Nat.ne_of_lt (hp q hq))
  have ex1 := e x1 (by simp)
  have ey1 := e y1 (by simp)
  have ez1 := e z1 (by simp)
  have ex2 := e x2 (by simp)
  have ey2 := e y2 (by simp)
  have ez2 := e z2 (by simp)
  have hs : ∀ p ∈ addSep, CurveMem.bind [x3, y3, z3, x1, y1, z1, x2, y2, z2] d p.1 ≠ CurveMem.bind [x3, y3, z3, x1, y1, z1, x2, y2, z2] d p.2 := by
    simp only [List.forall_mem_cons, List.not_mem_nil, false_implies, implies_true, and_true] at hi
    obtain ⟨⟨a1, a2, a3⟩, ⟨b1, b2, b3⟩, ⟨c1, c2, c3⟩, ⟨d1, d2, d3⟩, ⟨e1, e2, e3⟩, f1, f2, f3⟩ := hi
    have : addSep = [(0, 1), (0, 2), (0, 3), (0, 4), (0, 5), (0, 6), (0, 7), (0, 8), (1, 0), (1, 2), (1, 3), (1, 4), (1, 5), (1, 6), (1, 7), (1, 8),
      (2, 0), (2, 1), (2, 3), (2, 4), (2, 5), (2, 6), (2, 7), (2, 8)] := by decide +kernel
    rw [this]
    simp only [List.forall_mem_cons, List.not_mem_nil, false_implies, implies_true, and_true]
    exact ⟨hxy, hxz, a1.symm, b1.symm, c1.symm, d1.symm, e1.symm, f1.symm, hxy.symm, hyz, a2.symm, b2.symm, c2.symm, d2.symm, e2.symm, f2.symm,
      hxz.symm, hyz.symm, a3.symm, b3.symm, c3.symm, d3.symm, e3.symm, f3.symm⟩
  have h1 := call_ok hw hp [15] [] add_clash1 (fun _ h => absurd h List.not_mem_nil) 15 (by decide)
  have h2 := call_ok hw hp [18] [] add_clash2 (fun _ h => absurd h List.not_mem_nil) 18 (by decide)
  have h3 := call_ok hw hp [0, 1, 2] _ (add_clash3 (isZero (m z1)) (isZero (m z2))) hs
  have h30 := h3 0 (by decide)
  have h31 := h3 1 (by decide)
  have h32 := h3 2 (by decide)
  have hr := add_regs fun n => m.enter d zero (CurveMem.bind [x3, y3, z3, x1, y1, z1, x2, y2, z2] d n)
  have b0 : CurveMem.bind [x3, y3, z3, x1, y1, z1, x2, y2, z2] d 0 = x3 := rfl
  have b1 : CurveMem.bind [x3, y3, z3, x1, y1, z1, x2, y2, z2] d 1 = y3 := rfl
  have b2 : CurveMem.bind [x3, y3, z3, x1, y1, z1, x2, y2, z2] d 2 = z3 := rfl
  have b3 : CurveMem.bind [x3, y3, z3, x1, y1, z1, x2, y2, z2] d 3 = x1 := rfl
  have b4 : CurveMem.bind [x3, y3, z3, x1, y1, z1, x2, y2, z2] d 4 = y1 := rfl
  have b5 : CurveMem.bind [x3, y3, z3, x1, y1, z1, x2, y2, z2] d 5 = z1 := rfl
  have b6 : CurveMem.bind [x3, y3, z3, x1, y1, z1, x2, y2, z2] d 6 = x2 := rfl
  have b7 : CurveMem.bind [x3, y3, z3, x1, y1, z1, x2, y2, z2] d 7 = y2 := rfl
  have b8 : CurveMem.bind [x3, y3, z3, x1, y1, z1, x2, y2, z2] d 8 = z2 := rfl
  rw [b0] at h30
  rw [b1] at h31
  rw [b2] at h32
  simp only [b3, b4, b5, b6, b7, b8, ex1, ey1, ez1, ex2, ey2, ez2, ← h1, ← h2, ← h30, ← h31, ← h32] at hr
  rw [hr, addJacTo_eq]
  dsimp only
  rw [ez1, ez2]
  split
  · have hf : ∀ q ∈ [x1, y1, z1], exec (CurveMem.bind [x3, y3, z3, x1, y1, z1, x2, y2, z2] d) (addOps1 ++ addOps2) (m.enter d zero) q = m q := by
      intro q hq
      have hq' : q ∈ [x3, y3, z3, x1, y1, z1, x2, y2, z2] := by
        simp only [List.mem_cons, List.not_mem_nil, or_false] at hq ⊢
        rcases hq with h | h | h <;> simp [h]
      exact (call_frame hw [] add_dst2 q (hp q hq') fun _ h => absurd h List.not_mem_nil).trans (e q hq')
    rw [doubleTo_ok (exec_wf hw) _ hxy hxz hyz, hf x1 (by simp), hf y1 (by simp), hf z1 (by simp)]
    intro p h
    refine Nat.lt_succ_of_lt (hp p ?_)
    simp only [List.mem_cons, List.not_mem_nil, or_false] at h ⊢
    rcases h with h | h | h | h | h | h <;> simp [h]
  · rfl

theorem addJacTo_frame {m : Mem} (hm : WF 8 m) {d : Nat} {x3 y3 z3 x1 y1 z1 x2 y2 z2 q : Addr} (hq : q.1 < d) (hx : q ≠ x3) (hy : q ≠ y3) (hz : q ≠ z3) :
    addJacTo d x3 y3 z3 x1 y1 z1 x2 y2 z2 m q = m q := by
  have hw := wf_enter hm d
  rw [addJacTo_eq]
  dsimp only
  have e : m.enter d zero q = m q := enter_ne _ _ _ (Nat.ne_of_lt hq)
  split
  · rw [doubleTo_frame (exec_wf hw) (Nat.lt_succ_of_lt hq) hx hy hz]
    exact (call_frame hw [] add_dst2 q hq fun _ h => absurd h List.not_mem_nil).trans e
  · refine (call_frame hw [0, 1, 2] (add_dst3 _ _) q hq ?_).trans e
    simp only [List.forall_mem_cons, List.not_mem_nil, false_implies, implies_true, and_true]
    exact ⟨hx, hy, hz⟩

/-! ### Scalar multiplication -/

theorem copyTo_eq {m : Mem} (hm : WF 8 m) (out a : Addr) (c : W) : copyTo out a c m = m.put out (copyConditional (m out) (m a) c) := by
  rw [copyTo, loop1_eq hm, ofFn_zipWith (fun x y => x ^^^ ((x ^^^ y) &&& asr31 (c <<< 31))) (hm _) (hm _)]
  rfl

/-- The addresses of a scalar multiplication: outputs apart from each other and from the inputs, all made before the call. -/
structure Apart (d : Nat) (x1 y1 z1 x0 y0 z0 : Addr) : Prop where
  low : ∀ p ∈ [x1, y1, z1, x0, y0, z0], p.1 < d
  xy : x1 ≠ y1
  xz : x1 ≠ z1
  yz : y1 ≠ z1
  inputs : ∀ p ∈ [x0, y0, z0], p ≠ x1 ∧ p ≠ y1 ∧ p ≠ z1

/-- What a step keeps: the accumulator has the value `s`, everything else in lower frames is as in `m`. -/
structure Holds (d : Nat) (x1 y1 z1 : Addr) (m m' : Mem) (s : Jac) : Prop where
  wf : WF 8 m'
  x : m' x1 = s.1
  y : m' y1 = s.2.1
  z : m' z1 = s.2.2
  rest : ∀ q : Addr, q.1 < d → q ≠ x1 → q ≠ y1 → q ≠ z1 → m' q = m q

theorem scalarBitTo_ok {d : Nat} {x1 y1 z1 x0 y0 z0 : Addr} (ha : Apart d x1 y1 z1 x0 y0 z0) {m m' : Mem} {s : Jac} (h : Holds d x1 y1 z1 m m' s)
    (byte : Byte) (i : Nat) :
    Holds d x1 y1 z1 m (scalarBitTo d x1 y1 z1 x0 y0 z0 byte m' i) (scalarBit (m x0) (m y0) (m z0) byte s i) := by
  have hx1 := ha.low x1 (by simp)
  have hy1 := ha.low y1 (by simp)
  have hz1 := ha.low z1 (by simp)
  obtain ⟨⟨a1, a2, a3⟩, ⟨b1, b2, b3⟩, c1, c2, c3⟩ : (x0 ≠ x1 ∧ x0 ≠ y1 ∧ x0 ≠ z1) ∧ (y0 ≠ x1 ∧ y0 ≠ y1 ∧ y0 ≠ z1) ∧ (z0 ≠ x1 ∧ z0 ≠ y1 ∧ z0 ≠ z1) := by
    have := ha.inputs
    simpa only [List.forall_mem_cons, List.not_mem_nil, false_implies, implies_true, and_true] using this
  have ne : ∀ (q : Addr) (k : Nat), q.1 < d → q ≠ (d, k) := fun q k hq he => by rw [he] at hq; exact Nat.lt_irrefl _ hq
  -- the doubling in place
  have hw1 := doubleTo_wf h.wf (d + 1) x1 y1 z1 x1 y1 z1
  have hd := doubleTo_ok h.wf (d := d + 1) (x3 := x1) (y3 := y1) (z3 := z1) (x1 := x1) (y1 := y1) (z1 := z1) (by
    simp only [List.forall_mem_cons, List.not_mem_nil, false_implies, implies_true, and_true]
    omega) ha.xy ha.xz ha.yz
  have hf1 : ∀ q : Addr, q.1 < d → q ≠ x1 → q ≠ y1 → q ≠ z1 → doubleTo (d + 1) x1 y1 z1 x1 y1 z1 m' q = m q := fun q hq hx hy hz => by
    rw [doubleTo_frame h.wf (Nat.lt_succ_of_lt hq) hx hy hz, h.rest q hq hx hy hz]
  have l0 := ha.low x0 (by simp)
  have l1 := ha.low y0 (by simp)
  have l2 := ha.low z0 (by simp)
  simp only [scalarBitTo, scalarBit]
  rw [h.x, h.y, h.z] at hd
  generalize hm1 : doubleTo (d + 1) x1 y1 z1 x1 y1 z1 m' = m1 at *
  generalize doubleJacobian s.1 s.2.1 s.2.2 = t at *
  obtain ⟨tx, ty, tz⟩ := t
  obtain ⟨e1, e2, e3⟩ : m1 x1 = tx ∧ m1 y1 = ty ∧ m1 z1 = tz := by
    simpa only [Prod.mk.injEq] using hd
  have f0 := hf1 x0 l0 a1 a2 a3
  have f1 := hf1 y0 l1 b1 b2 b3
  have f2 := hf1 z0 l2 c1 c2 c3
  -- the addition into local arrays
  have hw2 := addJacTo_wf hw1 (d + 1) (d, 6) (d, 7) (d, 8) x0 y0 z0 x1 y1 z1
  have hadd := addJacTo_ok hw1 (d := d + 1) (x3 := (d, 6)) (y3 := (d, 7)) (z3 := (d, 8)) (x1 := x0) (y1 := y0) (z1 := z0) (x2 := x1) (y2 := y1) (z2 := z1) (by
    simp only [List.forall_mem_cons, List.not_mem_nil, false_implies, implies_true, and_true]
    omega) (by simp) (by simp) (by simp) (by
    simp only [List.forall_mem_cons, List.not_mem_nil, false_implies, implies_true, and_true]
    exact ⟨⟨ne _ _ l0, ne _ _ l0, ne _ _ l0⟩, ⟨ne _ _ l1, ne _ _ l1, ne _ _ l1⟩, ⟨ne _ _ l2, ne _ _ l2, ne _ _ l2⟩, ⟨ne _ _ hx1, ne _ _ hx1, ne _ _ hx1⟩,
      ⟨ne _ _ hy1, ne _ _ hy1, ne _ _ hy1⟩, ne _ _ hz1, ne _ _ hz1, ne _ _ hz1⟩)
  have hf2 : ∀ q : Addr, q.1 < d → addJacTo (d + 1) (d, 6) (d, 7) (d, 8) x0 y0 z0 x1 y1 z1 m1 q = m1 q := fun q hq =>
    addJacTo_frame hw1 (Nat.lt_succ_of_lt hq) (ne _ _ hq) (ne _ _ hq) (ne _ _ hq)
  rw [f0, f1, f2, e1, e2, e3] at hadd
  generalize addJacTo (d + 1) (d, 6) (d, 7) (d, 8) x0 y0 z0 x1 y1 z1 m1 = m2 at *
  generalize addJacobian (m x0) (m y0) (m z0) tx ty tz = u at *
  obtain ⟨ux, uy, uz⟩ := u
  obtain ⟨g1, g2, g3⟩ : m2 (d, 6) = ux ∧ m2 (d, 7) = uy ∧ m2 (d, 8) = uz := by
    simpa only [Prod.mk.injEq] using hadd
  -- the conditional copies
  have k1 := (hf2 x1 hx1).trans e1
  have k2 := (hf2 y1 hy1).trans e2
  have k3 := (hf2 z1 hz1).trans e3
  generalize BitVec.setWidth 32 (byte >>> (7 - i) &&& 1#8) = c
  have cl : ∀ o a : Fe, o.length = 8 → a.length = 8 → (copyConditional o a c).length = 8 := fun o a h1 h2 => length_zipWith h1 h2
  have w1 : WF 8 (m2.put x1 (copyConditional tx ux c)) := hw2.put _ (cl _ _ (k1 ▸ hw2 _) (g1 ▸ hw2 _))
  have q1 : m2.put x1 (copyConditional tx ux c) y1 = ty := by rw [put_ne _ _ ha.xy.symm, k2]
  have q2 : m2.put x1 (copyConditional tx ux c) (d, 7) = uy := by rw [put_ne _ _ (ne _ _ hx1).symm, g2]
  have w2 : WF 8 ((m2.put x1 (copyConditional tx ux c)).put y1 (copyConditional ty uy c)) := w1.put _ (cl _ _ (q1 ▸ w1 _) (q2 ▸ w1 _))
  have q3 : (m2.put x1 (copyConditional tx ux c)).put y1 (copyConditional ty uy c) z1 = tz := by rw [put_ne _ _ ha.yz.symm, put_ne _ _ ha.xz.symm, k3]
  have q4 : (m2.put x1 (copyConditional tx ux c)).put y1 (copyConditional ty uy c) (d, 8) = uz := by
    rw [put_ne _ _ (ne _ _ hy1).symm, put_ne _ _ (ne _ _ hx1).symm, g3]
  rw [copyTo_eq hw2, k1, g1, copyTo_eq w1, q1, q2, copyTo_eq w2, q3, q4]
  refine ⟨w2.put _ (cl _ _ (q3 ▸ w2 _) (q4 ▸ w2 _)), ?_, ?_, ?_, fun q hq hx hy hz => ?_⟩
  · rw [put_ne _ _ ha.xz, put_ne _ _ ha.xy, put_same]
  · rw [put_ne _ _ ha.yz, put_same]
  · rw [put_same]
  · rw [put_ne _ _ hz, put_ne _ _ hy, put_ne _ _ hx, hf2 q hq, hf1 q hq hx hy hz]

theorem foldl_holds {α : Type} {d : Nat} {x1 y1 z1 : Addr} {m : Mem} (f : Mem → α → Mem) (g : Jac → α → Jac)
    (hs : ∀ m' s a, Holds d x1 y1 z1 m m' s → Holds d x1 y1 z1 m (f m' a) (g s a)) :
    ∀ (l : List α) (m' : Mem) (s : Jac), Holds d x1 y1 z1 m m' s → Holds d x1 y1 z1 m (l.foldl f m') (l.foldl g s)
  | [], _, _, h => h
  | a :: l, m', s, h => foldl_holds f g hs l _ _ (hs m' s a h)

theorem scalarMultTo_ok {d : Nat} {x1 y1 z1 x0 y0 z0 : Addr} (ha : Apart d x1 y1 z1 x0 y0 z0) {m : Mem} (hm : WF 8 m) (k : Bytes) :
    Holds d x1 y1 z1 m (scalarMultTo d x1 y1 z1 x0 y0 z0 k m) (scalarMult (m x0) (m y0) (m z0) k) := by
  refine foldl_holds _ _ (fun m' s byte h => foldl_holds _ _ (fun m' s i h => scalarBitTo_ok ha h byte i) _ _ _ h) _ _ _ ?_
  have hw := ((hm.enter d (v := zero) rfl).put x1 (v := zero) rfl).put y1 (v := zero) rfl
  refine ⟨hw.put z1 rfl, ?_, ?_, ?_, fun q hq hx hy hz => ?_⟩
  · rw [put_ne _ _ ha.xz, put_ne _ _ ha.xy, put_same]
  · rw [put_ne _ _ ha.yz, put_same]
  · rw [put_same]
  · rw [put_ne _ _ hz, put_ne _ _ hy, put_ne _ _ hx, enter_ne _ _ _ (Nat.ne_of_lt hq)]

/-! ### Conversion to affine coordinates -/

theorem regs_squares (k : Nat) : ∀ (n : Nat) (r : Nat → Fe), sem.regs (List.replicate n (.square k k)) r = upd r k (squareN n (r k))
  | 0, r => by
    funext i
    by_cases h : i = k <;> simp [Sem.regs, upd, squareN, h]
  | n + 1, r => by
    rw [List.replicate_succ]
    show sem.regs (List.replicate n (.square k k)) (upd r k (square (r k))) = _
    rw [regs_squares k n]
    funext i
    by_cases h : i = k <;> simp [upd, squareN, h]

theorem regs_cons (op : Op) (ops : List Op) (r : Nat → Fe) : sem.regs (op :: ops) r = sem.regs ops (upd r (sem.dst op) (sem.val op r)) := rfl
theorem regs_nil (r : Nat → Fe) : sem.regs [] r = r := rfl

theorem invert_regs (r : Nat → Fe) : sem.regs invertOps r 0 = invert (r 1) := by
  simp only [invertOps, Sem.regs_append, regs_squares, regs_cons, regs_nil]
  simp only [sem, upd, Nat.reduceEqDiff, if_true, if_false, OfNat.ofNat_ne_zero,
    OfNat.zero_ne_ofNat, Nat.zero_ne_one, Nat.one_ne_zero, invert, OfNat.one_ne_ofNat]

theorem invert_clash : ∀ p ∈ sem.clash invertOps [0], (p.1 ≠ p.2 ∧ (2 ≤ p.1 ∨ 2 ≤ p.2)) ∨ p ∈ ([] : List (Nat × Nat)) := by decide +kernel
theorem invert_dst : ∀ n ∈ invertOps.map sem.dst, n ∈ [0] ∨ 2 ≤ n := by decide +kernel

theorem invertTo_ok {m : Mem} (hm : WF 8 m) {d : Nat} {out a : Addr} (ho : out.1 < d) (ha : a.1 < d) : invertTo d out a m out = invert (m a) := by
  have hp : ∀ p ∈ [out, a], p.1 < d := by
    simp only [List.forall_mem_cons, List.not_mem_nil, false_implies, implies_true, and_true]
    exact ⟨ho, ha⟩
  have h := call_ok (wf_enter hm d) hp [0] [] invert_clash (fun _ h => absurd h List.not_mem_nil) 0 (by decide)
  have b0 : CurveMem.bind [out, a] d 0 = out := rfl
  have b1 : CurveMem.bind [out, a] d 1 = a := rfl
  rw [invert_regs, b0, b1, enter_ne _ _ _ (Nat.ne_of_lt ha)] at h
  exact h

theorem invertTo_frame {m : Mem} (hm : WF 8 m) {d : Nat} {out a q : Addr} (hq : q.1 < d) (ho : q ≠ out) : invertTo d out a m q = m q := by
  refine (call_frame (wf_enter hm d) [0] invert_dst q hq ?_).trans (enter_ne _ _ _ (Nat.ne_of_lt hq))
  simp only [List.forall_mem_cons, List.not_mem_nil, false_implies, implies_true, and_true]
  exact ho

theorem affine_regs (r : Nat → Fe) :
    sem.regs affineOps r 5 = contract (mul (r 0) (square (r 3))) ∧ sem.regs affineOps r 6 = contract (mul (r 1) (mul (square (r 3)) (r 3))) := by
  simp only [affineOps, regs_cons, regs_nil]
  simp only [sem, upd, Nat.reduceEqDiff, if_true, if_false, OfNat.ofNat_ne_zero,
    OfNat.zero_ne_ofNat, Nat.zero_ne_one, Nat.one_ne_zero, and_self, OfNat.one_ne_ofNat]

theorem affine_clash : ∀ p ∈ sem.clash affineOps [5, 6], (p.1 ≠ p.2 ∧ (3 ≤ p.1 ∨ 3 ≤ p.2)) ∨ p ∈ [(0, 1), (1, 0)] := by decide +kernel

theorem toAffineFrom_ok {m : Mem} (hm : WF 8 m) {d : Nat} {x y z : Addr} (hx : x.1 < d) (hy : y.1 < d) (hz : z.1 < d) (hxy : x ≠ y) :
    toAffineFrom d x y z m = toAffine (m x, m y, m z) := by
  have hw := wf_enter hm d
  have ez : m.enter d zero z = m z := enter_ne _ _ _ (Nat.ne_of_lt hz)
  have ex : m.enter d zero x = m x := enter_ne _ _ _ (Nat.ne_of_lt hx)
  have ey : m.enter d zero y = m y := enter_ne _ _ _ (Nat.ne_of_lt hy)
  have ne : ∀ (q : Addr) (k : Nat), q.1 < d → q ≠ (d, k) := fun q k hq he => by rw [he] at hq; exact Nat.lt_irrefl _ hq
  simp only [toAffineFrom, toAffine, ez]
  split
  · rfl
  · have hi := invertTo_ok hw (d := d + 1) (out := (d, 3)) (a := z) (Nat.lt_succ_self d) (Nat.lt_succ_of_lt hz)
    have fx := invertTo_frame hw (d := d + 1) (out := (d, 3)) (a := z) (q := x) (Nat.lt_succ_of_lt hx) (ne _ _ hx)
    have fy := invertTo_frame hw (d := d + 1) (out := (d, 3)) (a := z) (q := y) (Nat.lt_succ_of_lt hy) (ne _ _ hy)
    have hwi : WF 8 (invertTo (d + 1) (d, 3) z (m.enter d zero)) := exec_wf (wf_enter hw _)
    have hp : ∀ p ∈ [x, y, z], p.1 < d := by
      simp only [List.forall_mem_cons, List.not_mem_nil, false_implies, implies_true, and_true]
      exact ⟨hx, hy, hz⟩
    have h := call_ok hwi hp [5, 6] [(0, 1), (1, 0)] affine_clash (by
      simp only [List.forall_mem_cons, List.not_mem_nil, false_implies, implies_true, and_true]
      exact ⟨hxy, hxy.symm⟩)
    have h5 := h 5 (by decide)
    have h6 := h 6 (by decide)
    have b0 : CurveMem.bind [x, y, z] d 0 = x := rfl
    have b1 : CurveMem.bind [x, y, z] d 1 = y := rfl
    have b3 : CurveMem.bind [x, y, z] d 3 = (d, 3) := rfl
    have b5 : CurveMem.bind [x, y, z] d 5 = (d, 5) := rfl
    have b6 : CurveMem.bind [x, y, z] d 6 = (d, 6) := rfl
    rw [(affine_regs _).1, b5] at h5
    rw [(affine_regs _).2, b6] at h6
    simp only [b0, b1, b3, hi, fx, fy, ez, ex, ey] at h5 h6
    rw [h5, h6]

/-! ### The methods -/

theorem onCurve_regs (r : Nat → Fe) :
    sem.regs onCurveOps r 3 = contract (add (reduce (sub (mul (square (r 1)) (r 1)) ((r 1).map (· * 3#32)))) (r 0)) ∧
    sem.regs onCurveOps r 2 = contract (square (r 2)) := by
  simp only [onCurveOps, regs_cons, regs_nil]
  simp only [sem, upd, Nat.reduceEqDiff, if_true, if_false, OfNat.ofNat_ne_zero,
    OfNat.zero_ne_ofNat, Nat.zero_ne_one, Nat.one_ne_zero, and_self, OfNat.one_ne_ofNat]

theorem onCurve_clash : ∀ p ∈ sem.clash onCurveOps [2, 3], (p.1 ≠ p.2 ∧ (1 ≤ p.1 ∨ 1 ≤ p.2)) ∨ p ∈ ([] : List (Nat × Nat)) := by decide +kernel

theorem isOnCurve_eq (c : CurveP224) (hb : c.b.length = 8) {m : Mem} (hm : WF 8 m) (x y : Big) : isOnCurve c m x y = P224.isOnCurve c x y := by
  match x, y with
  | none, _ => rfl
  | some _, none => rfl
  | some x, some y =>
    have hw : WF 8 ((((m.put (0, 2) c.b).enter 1 zero).put (1, 1) (fromBigint x)).put (1, 2) (fromBigint y)) :=
      (((hm.put _ hb).enter 1 (v := zero) rfl).put _ (length_fromBigint x)).put _ (length_fromBigint y)
    have h := call_ok hw (ps := [(0, 2)]) (d := 1) (by simp) [2, 3] [] onCurve_clash (fun _ h => absurd h List.not_mem_nil)
    have h2 := h 2 (by decide)
    have h3 := h 3 (by decide)
    rw [(onCurve_regs _).2] at h2
    rw [(onCurve_regs _).1] at h3
    have b0 : CurveMem.bind [(0, 2)] 1 0 = (0, 2) := rfl
    have b1 : CurveMem.bind [(0, 2)] 1 1 = (1, 1) := rfl
    have b2 : CurveMem.bind [(0, 2)] 1 2 = (1, 2) := rfl
    have b3 : CurveMem.bind [(0, 2)] 1 3 = (1, 3) := rfl
    have e0 : ((((m.put (0, 2) c.b).enter 1 zero).put (1, 1) (fromBigint x)).put (1, 2) (fromBigint y)) (0, 2) = c.b := by
      rw [put_ne _ _ (by decide), put_ne _ _ (by decide), enter_ne _ _ _ (by decide), put_same]
    have e1 : ((((m.put (0, 2) c.b).enter 1 zero).put (1, 1) (fromBigint x)).put (1, 2) (fromBigint y)) (1, 1) = fromBigint x := by
      rw [put_ne _ _ (by decide), put_same]
    rw [b2, put_same] at h2
    rw [b3, b0, b1, e0, e1] at h3
    simp only [isOnCurve, P224.isOnCurve, h2, h3]

theorem one_eq : zero.set 0 1#32 = one := rfl

theorem addPoints_eq (c : CurveP224) {m : Mem} (hm : WF 8 m) (x1 y1 x2 y2 : Big) : addPoints c m x1 y1 x2 y2 = P224.addPoints c x1 y1 x2 y2 := by
  match x1, y1, x2, y2 with
  | none, _, _, _ => rfl
  | some _, none, _, _ => rfl
  | some _, some _, none, _ => rfl
  | some _, some _, some _, none => rfl
  | some x1, some y1, some x2, some y2 =>
    have z1 : ∀ m : Mem, m (1, 2) = zero → (if x1 ≠ 0 ∨ y1 ≠ 0 then m.setLimb (1, 2) 0 1#32 else m) = m.put (1, 2) (zFor x1 y1) := fun m h => by
      unfold zFor
      split
      · rw [Mem.setLimb, h, one_eq]
      · rw [← h, put_self]
    have z2 : ∀ m : Mem, m (1, 5) = zero → (if x2 ≠ 0 ∨ y2 ≠ 0 then m.setLimb (1, 5) 0 1#32 else m) = m.put (1, 5) (zFor x2 y2) := fun m h => by
      unfold zFor
      split
      · rw [Mem.setLimb, h, one_eq]
      · rw [← h, put_self]
    have hl : ∀ x y, (zFor x y).length = 8 := fun x y => by unfold zFor; split <;> rfl
    simp only [addPoints, P224.addPoints]
    rw [z1 _ (by rw [put_ne _ _ (by decide), put_ne _ _ (by decide), enter_same])]
    rw [z2 _ (by rw [put_ne _ _ (by decide), put_ne _ _ (by decide), put_ne _ _ (by decide), put_ne _ _ (by decide), put_ne _ _ (by decide), enter_same])]
    have hw : WF 8 ((((((((m.enter 1 zero).put (1, 0) (fromBigint x1)).put (1, 1) (fromBigint y1)).put (1, 2) (zFor x1 y1)).put (1, 3) (fromBigint x2)).put (1, 4)
        (fromBigint y2))).put (1, 5) (zFor x2 y2)) :=
      ((((((wf_enter hm 1).put _ (length_fromBigint _)).put _ (length_fromBigint _)).put _ (hl _ _)).put _ (length_fromBigint _)).put _
        (length_fromBigint _)).put _ (hl _ _)
    have h := addJacTo_ok hw (d := 2) (x3 := (1, 6)) (y3 := (1, 7)) (z3 := (1, 8)) (x1 := (1, 0)) (y1 := (1, 1)) (z1 := (1, 2)) (x2 := (1, 3)) (y2 := (1, 4))
      (z2 := (1, 5)) (by simp) (by decide) (by decide) (by decide) (by simp)
    rw [toAffineFrom_ok (addJacTo_wf hw _ _ _ _ _ _ _ _ _ _) (by decide) (by decide) (by decide) (by decide), h]
    rfl

theorem double_eq (c : CurveP224) {m : Mem} (hm : WF 8 m) (x y : Big) : double c m x y = P224.double c x y := by
  match x, y with
  | none, _ => rfl
  | some _, none => rfl
  | some x, some y =>
    have hw : WF 8 ((((m.enter 1 zero).put (1, 0) (fromBigint x)).put (1, 1) (fromBigint y)).setLimb (1, 2) 0 1#32) :=
      (((wf_enter hm 1).put _ (length_fromBigint _)).put _ (length_fromBigint _)).setLimb _ _ _
    have h := doubleTo_ok hw (d := 2) (x3 := (1, 3)) (y3 := (1, 4)) (z3 := (1, 5)) (x1 := (1, 0)) (y1 := (1, 1)) (z1 := (1, 2)) (by simp) (by decide) (by decide)
      (by decide)
    simp only [double, P224.double]
    rw [toAffineFrom_ok (doubleTo_wf hw _ _ _ _ _ _ _) (by decide) (by decide) (by decide) (by decide), h]
    rfl

theorem holds_triple {d : Nat} {x1 y1 z1 : Addr} {m m' : Mem} {s : Jac} (h : Holds d x1 y1 z1 m m' s) : (m' x1, m' y1, m' z1) = s := by
  rw [h.x, h.y, h.z]

theorem scalar_eq (c : CurveP224) {m : Mem} (hm : WF 8 m) (x y : Big) (k : Option Nat) : scalar c m x y k = P224.scalar c x y k := by
  match x, y, k with
  | none, _, _ => rfl
  | some _, none, _ => rfl
  | some _, some _, none => rfl
  | some x, some y, some k =>
    have hw : WF 8 ((((m.enter 1 zero).put (1, 0) (fromBigint x)).put (1, 1) (fromBigint y)).setLimb (1, 2) 0 1#32) :=
      (((wf_enter hm 1).put _ (length_fromBigint _)).put _ (length_fromBigint _)).setLimb _ _ _
    have h := scalarMultTo_ok (d := 2) (x1 := (1, 3)) (y1 := (1, 4)) (z1 := (1, 5)) (x0 := (1, 0)) (y0 := (1, 1)) (z0 := (1, 2))
      ⟨by simp, by decide, by decide, by decide, by simp⟩ hw (natBytes k)
    simp only [scalar, P224.scalar]
    rw [toAffineFrom_ok h.wf (by decide) (by decide) (by decide) (by decide), holds_triple h]
    rfl

theorem scalarBasePoint_eq (c : CurveP224) (hx : c.gx.length = 8) (hy : c.gy.length = 8) {m : Mem} (hm : WF 8 m) (k : Option Nat) :
    scalarBasePoint c m k = P224.scalarBasePoint c k := by
  match k with
  | none => rfl
  | some k =>
    have hw : WF 8 ((((m.put (0, 0) c.gx).put (0, 1) c.gy).enter 1 zero).setLimb (1, 0) 0 1#32) :=
      (((hm.put _ hx).put _ hy).enter 1 (v := zero) rfl).setLimb _ _ _
    have h := scalarMultTo_ok (d := 2) (x1 := (1, 1)) (y1 := (1, 2)) (z1 := (1, 3)) (x0 := (0, 0)) (y0 := (0, 1)) (z0 := (1, 0))
      ⟨by simp, by decide, by decide, by decide, by simp⟩ hw (natBytes k)
    simp only [scalarBasePoint, P224.scalarBasePoint]
    rw [toAffineFrom_ok h.wf (by decide) (by decide) (by decide) (by decide), holds_triple h]
    rfl

end Verif.Model.P224Mem
