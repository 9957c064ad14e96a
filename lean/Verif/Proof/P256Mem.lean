import Verif.Model.P256Mem
import Verif.Proof.Interference

/-! P-256 on a memory against P-256 on values -/

namespace Verif.Model.P256Mem
open Verif.Model.CurveMem
open Verif.Model.Elliptic (Big)
open Verif.Model.P256

/-! ### Lengths -/

theorem nine {l : Fe} (h : l.length = 9) : ∃ a0 a1 a2 a3 a4 a5 a6 a7 a8, l = [a0, a1, a2, a3, a4, a5, a6, a7, a8] := by
  match l, h with
  | [a0, a1, a2, a3, a4, a5, a6, a7, a8], _ => exact ⟨_, _, _, _, _, _, _, _, _, rfl⟩

theorem length_reduceCarry {a : Fe} (h : a.length = 9) (c : W) : (reduceCarry a c).length = 9 := by
  obtain ⟨a0, a1, a2, a3, a4, a5, a6, a7, a8, rfl⟩ := nine h
  rfl

theorem length_carryLoop : ∀ (l : List W) (e : Bool) (c : W), (carryLoop e c l).1.length = l.length
  | [], _, _ => rfl
  | x :: l, e, c => by
    rw [carryLoop]
    simp only [List.length_cons, length_carryLoop l]

theorem length_shiftLoop (k : Nat) : ∀ (l : List W) (e : Bool) (c : W), (shiftLoop k e c l).1.length = l.length
  | [], _, _ => rfl
  | x :: l, e, c => by
    rw [shiftLoop]
    simp only [List.length_cons, length_shiftLoop k l]

theorem length_zipWith {f : W → W → W} {a b : Fe} (ha : a.length = 9) (hb : b.length = 9) : (List.zipWith f a b).length = 9 := by
  rw [List.length_zipWith, ha, hb]; rfl

theorem length_sum {a b : Fe} (ha : a.length = 9) (hb : b.length = 9) : (sum a b).length = 9 := by
  exact length_reduceCarry (by rw [length_carryLoop, length_zipWith ha hb]) _

theorem length_diff {a b : Fe} (ha : a.length = 9) (hb : b.length = 9) : (diff a b).length = 9 := by
  exact length_reduceCarry (by rw [length_carryLoop, length_zipWith (length_zipWith ha hb) rfl]) _

theorem length_scalar3 {a : Fe} (ha : a.length = 9) : (scalar3 a).length = 9 := by
  exact length_reduceCarry (by rw [length_carryLoop, List.length_map, ha]) _

theorem length_scalar4 {a : Fe} (ha : a.length = 9) : (scalar4 a).length = 9 := by
  exact length_reduceCarry (by rw [length_shiftLoop, ha]) _

theorem length_scalar8 {a : Fe} (ha : a.length = 9) : (scalar8 a).length = 9 := by
  exact length_reduceCarry (by rw [length_shiftLoop, ha]) _

theorem length_spreadLoop : ∀ (l : List D) (e : Bool) (p2 p1 : D) (c : W), (spreadLoop e p2 p1 c l).length = l.length + 1
  | [], _, _, _, _ => rfl
  | x :: l, e, p2, p1, c => by
    rw [spreadLoop]
    simp only [List.length_cons, length_spreadLoop l]

theorem length_spread {l : List D} (h : 2 ≤ l.length) : (spread l).length = l.length + 1 := by
  match l, h with
  | t0 :: t1 :: ts, _ =>
    rw [spread]
    simp only [List.length_cons, length_spreadLoop]

theorem length_topHalf {l : List W} {n : Nat} (h : l.length = n + 10) : List.length (topHalf release l : Id (List W)) = n + 9 := by
  match l, h with
  | t0 :: t1 :: t2 :: t3 :: t4 :: t5 :: t6 :: t7 :: t8 :: t9 :: rest, h =>
    simp only [List.length_cons] at h
    show List.length (_ :: _ :: _ :: _ :: _ :: _ :: _ :: _ :: _ :: rest) = _
    simp only [List.length_cons]
    omega

theorem length_bottomHalf {l : List W} {n : Nat} (h : l.length = n + 10) : List.length (bottomHalf release l : Id (List W)) = n + 9 := by
  match l, h with
  | t0 :: t1 :: t2 :: t3 :: t4 :: t5 :: t6 :: t7 :: t8 :: t9 :: rest, h =>
    simp only [List.length_cons] at h
    show List.length (_ :: _ :: _ :: _ :: _ :: _ :: _ :: _ :: _ :: rest) = _
    simp only [List.length_cons]
    omega

theorem length_eliminate : ∀ (n : Nat) (l : List W), l.length = 2 * n + 10 → List.length (eliminate release n l : Id (List W)) = 9
  | 0, l, h => length_topHalf (n := 0) h
  | n + 1, l, h => by
    show List.length (eliminate release n (bottomHalf release (topHalf release l)) : Id (List W)) = 9
    refine length_eliminate n _ ?_
    exact length_bottomHalf (n := 2 * n + 1) (length_topHalf (n := 2 * n + 2) h)

theorem length_shiftDown : ∀ (l : List W) (c : W), (shiftDown c l).1.length = l.length
  | [], _ => rfl
  | [_], _ => rfl
  | a :: b :: l, c => by
    rw [shiftDown]
    simp only [List.length_cons, length_shiftDown l]

theorem length_reduceDegree {l : List D} (h : l.length = 17) : List.length (reduceDegree release l : Id Fe) = 9 := by
  show List.length (reduceCarry (shiftDown 0#32 (eliminate release 4 (spread l))).1 _) = 9
  refine length_reduceCarry ?_ _
  rw [length_shiftDown]
  exact length_eliminate 4 _ (by rw [length_spread (by omega), h])

theorem length_square {a : Fe} (h : a.length = 9) : List.length (square release a : Id Fe) = 9 := by
  obtain ⟨a0, a1, a2, a3, a4, a5, a6, a7, a8, rfl⟩ := nine h
  exact length_reduceDegree rfl

theorem length_mul {a b : Fe} (ha : a.length = 9) (hb : b.length = 9) : List.length (mul release a b : Id Fe) = 9 := by
  obtain ⟨a0, a1, a2, a3, a4, a5, a6, a7, a8, rfl⟩ := nine ha
  obtain ⟨b0, b1, b2, b3, b4, b5, b6, b7, b8, rfl⟩ := nine hb
  exact length_reduceDegree rfl

theorem length_limbsOf : ∀ (n : Nat) (e : Bool) (t : Nat), (limbsOf n e t).length = n
  | 0, _, _ => rfl
  | n + 1, e, t => by rw [limbsOf, List.length_cons, length_limbsOf n]

theorem length_fromBigint (c : CurveP256) (a : Int) : (fromBigint c a).length = 9 := length_limbsOf _ _ _

/-! ### One operation -/

/-- What each operation writes, reads and computes. -/
def sem : Sem Op where
  dst
    | .square o _ | .mul o _ _ | .sum o _ _ | .diff o _ _ | .scalar3 o | .scalar4 o | .scalar8 o | .assign o _ => o
  src
    | .square _ a | .assign _ a | .scalar3 a | .scalar4 a | .scalar8 a => [a]
    | .mul _ a b | .sum _ a b | .diff _ a b => [a, b]
  val
    | .square _ a, r => square release (r a)
    | .mul _ a b, r => mul release (r a) (r b)
    | .sum _ a b, r => sum (r a) (r b)
    | .diff _ a b, r => diff (r a) (r b)
    | .scalar3 a, r => scalar3 (r a)
    | .scalar4 a, r => scalar4 (r a)
    | .scalar8 a, r => scalar8 (r a)
    | .assign _ a, r => r a
  congr op r s h := by
    cases op <;> simp only [List.mem_cons, List.not_mem_nil, or_false, forall_eq_or_imp, forall_eq] at h <;> simp only [h]

theorem length_val (op : Op) (r : Nat → Fe) (h : ∀ n, (r n).length = 9) : (sem.val op r).length = 9 := by
  cases op
  · exact length_square (h _)
  · exact length_mul (h _) (h _)
  · exact length_sum (h _) (h _)
  · exact length_diff (h _) (h _)
  · exact length_scalar3 (h _)
  · exact length_scalar4 (h _)
  · exact length_scalar8 (h _)
  · exact h _

/-- The carry that reaches limb `i`. -/
def carryIn (v : Nat → W) : Nat → W
  | 0 => 0#32
  | i + 1 => (v i + carryIn v i) >>> width (i % 2 == 0)

theorem carryTo_eq {m : Mem} (hm : WF 9 m) (f : Nat → W → W → W) (out a b : Addr) (v : Nat → W) (hv : ∀ i, v i = f i ((m a).getD i 0) ((m b).getD i 0)) :
    (List.range 9).foldl (carryTo f out a b) (m, 0#32) =
      (m.put out (carryLoop true 0#32 (List.ofFn fun i : Fin 9 => v i)).1, (carryLoop true 0#32 (List.ofFn fun i : Fin 9 => v i)).2) := by
  have h := range_foldl_ind (carryTo f out a b)
    (fun k s => s = (m.put out (partly k (m out) fun i : Fin 9 => (v i + carryIn v i) &&& maskOf (i.1 % 2 == 0)), carryIn v k)) (m, 0#32)
    (by rw [partly_zero (hm out), put_self]; rfl) 9 ?_
  · rw [partly_all] at h
    rw [h]
    rfl
  · rintro k _ hk rfl
    have hl : k < ((partly k (m out) fun i : Fin 9 => (v i + carryIn v i) &&& maskOf (i.1 % 2 == 0)) : List W).length := by
      simpa [partly] using hk
    have hg : ∀ (l : List W) (x : W), k < l.length → (l.set k x).getD k 0 = x := fun l x h => by
      rw [List.getD_eq_getElem?_getD, List.getElem?_set_self h]; rfl
    have hss : ∀ (l : List W) (x y : W), (l.set k x).set k y = l.set k y := fun l x y => List.set_set ..
    have hlimb : ∀ (l : List W), (m.put out l).limb out k = l.getD k 0 := fun l => by rw [Mem.limb, put_same]
    simp only [carryTo, limb_partly hk, ← hv, put_setLimb, hlimb, hg _ _ hl, hss]
    rw [← partly_succ hk]
    rfl

theorem sumTo_eq {m : Mem} (hm : WF 9 m) (out a b : Addr) : sumTo out a b m = m.put out (sum (m a) (m b)) := by
  have h := carryTo_eq hm (fun _ x y => x + y) out a b (fun i => (m a).getD i 0 + (m b).getD i 0) fun _ => rfl
  rw [ofFn_zipWith (fun x y => x + y) (hm a) (hm b)] at h
  rw [sumTo, h]
  dsimp only [reduceCarryAt]
  rw [put_same, put_put]
  rfl

theorem diffTo_eq {m : Mem} (hm : WF 9 m) (out a b : Addr) : diffTo out a b m = m.put out (diff (m a) (m b)) := by
  have h := carryTo_eq hm (fun i x y => x - y + zero31.getD i 0) out a b (fun i => (m a).getD i 0 - (m b).getD i 0 + zero31.getD i 0) fun _ => rfl
  have e : (List.ofFn fun i : Fin 9 => (m a).getD i 0 - (m b).getD i 0 + zero31.getD i 0) =
      List.zipWith (· + ·) (List.zipWith (· - ·) (m a) (m b)) zero31 := by
    rw [← ofFn_zipWith (n := 9) (fun x y => x + y) (length_zipWith (hm a) (hm b)) rfl]
    congr 1
    funext i
    congr 1
    have h1 := ofFn_zipWith (n := 9) (fun x y => x - y) (hm a) (hm b)
    rw [← h1, List.getD_eq_getElem?_getD (l := List.ofFn _), List.getElem?_eq_getElem (by simp)]
    simp only [List.getElem_ofFn, Option.getD_some]
  rw [e] at h
  rw [diffTo, h]
  dsimp only [reduceCarryAt]
  rw [put_same, put_put]
  rfl

theorem exec_op {m : Mem} (hm : WF 9 m) (ρ : Nat → Addr) (op : Op) : op.exec ρ m = m.put (ρ (sem.dst op)) (sem.val op fun n => m (ρ n)) := by
  cases op
  case sum => exact sumTo_eq hm _ _ _
  case diff => exact diffTo_eq hm _ _ _
  all_goals rfl

theorem exec_eq (ρ : Nat → Addr) : ∀ (ops : List Op) (m : Mem), WF 9 m → exec ρ ops m = sem.mem ρ ops m ∧ WF 9 (exec ρ ops m)
  | [], m, h => ⟨rfl, h⟩
  | op :: ops, m, h => by
    have h1 := exec_op h ρ op
    have h2 : WF 9 (op.exec ρ m) := h1 ▸ h.put _ (length_val op _ fun n => h _)
    obtain ⟨h3, h4⟩ := exec_eq ρ ops _ h2
    refine ⟨?_, h4⟩
    show exec ρ ops (op.exec ρ m) = sem.mem ρ ops _
    rw [h3, h1]

theorem exec_wf {ρ : Nat → Addr} {ops : List Op} {m : Mem} (h : WF 9 m) : WF 9 (exec ρ ops m) := (exec_eq ρ ops m h).2

/-- A call with parameters in frames below `d`: the outputs are those of the program on separate registers. -/
theorem call_ok {ps : List Addr} {d : Nat} {ops : List Op} {m : Mem} (hm : WF 9 m) (hp : ∀ p ∈ ps, p.1 < d) (outs : List Nat) (sep : List (Nat × Nat))
    (hc : ∀ p ∈ sem.clash ops outs, (p.1 ≠ p.2 ∧ (ps.length ≤ p.1 ∨ ps.length ≤ p.2)) ∨ p ∈ sep)
    (hs : ∀ p ∈ sep, CurveMem.bind ps d p.1 ≠ CurveMem.bind ps d p.2) (n : Nat) (hn : n ∈ outs) :
    exec (CurveMem.bind ps d) ops m (CurveMem.bind ps d n) = sem.regs ops (fun n => m (CurveMem.bind ps d n)) n := by
  rw [(exec_eq _ ops m hm).1]
  refine sem.sim _ ops outs m _ (fun p h => ?_) (fun _ _ => rfl) n hn
  rcases hc p h with ⟨h1, h2⟩ | h1
  · exact bind_sep hp h1 h2
  · exact hs p h1

/-- A call leaves the arrays of the frames below `d` alone, except for its outputs. -/
theorem call_frame {ps : List Addr} {d : Nat} {ops : List Op} {m : Mem} (hm : WF 9 m) (outs : List Nat)
    (hd : ∀ n ∈ ops.map sem.dst, n ∈ outs ∨ ps.length ≤ n) (q : Addr) (hq : q.1 < d) (ho : ∀ n ∈ outs, q ≠ CurveMem.bind ps d n) :
    exec (CurveMem.bind ps d) ops m q = m q := by
  rw [(exec_eq _ ops m hm).1]
  refine sem.frame _ q ops m fun op hop he => ?_
  rcases hd _ (List.mem_map_of_mem hop) with h | h
  · exact ho _ h he.symm
  · rw [bind_local h] at he
    rw [← he] at hq
    exact Nat.lt_irrefl _ hq

theorem wf_enter {m : Mem} (hm : WF 9 m) (d : Nat) : WF 9 (m.enter d zero) := hm.enter d rfl

theorem id_bind {α β : Type} (x : α) (f : α → Id β) : (Bind.bind (m := Id) x f) = f x := rfl
theorem id_pure {α : Type} (x : α) : (pure x : Id α) = x := rfl

theorem regs_cons (op : Op) (ops : List Op) (r : Nat → Fe) : sem.regs (op :: ops) r = sem.regs ops (upd r (sem.dst op) (sem.val op r)) := rfl
theorem regs_nil (r : Nat → Fe) : sem.regs [] r = r := rfl

/-! ### Doubling -/

theorem double_regs (r : Nat → Fe) :
    (sem.regs doubleOps r 0, sem.regs doubleOps r 1, sem.regs doubleOps r 2) = pointDouble release (r 3, r 4, r 5) := by
  simp only [pointDouble, id_bind, id_pure]
  simp only [doubleOps, regs_cons, regs_nil]
  simp only [sem, upd, Nat.reduceEqDiff, if_true, if_false, OfNat.ofNat_ne_zero, OfNat.zero_ne_ofNat, Nat.zero_ne_one, Nat.one_ne_zero, OfNat.one_ne_ofNat]

theorem double_clash : ∀ p ∈ sem.clash doubleOps [0, 1, 2], (p.1 ≠ p.2 ∧ (6 ≤ p.1 ∨ 6 ≤ p.2)) ∨ p ∈ [(0, 2), (1, 0), (1, 2)] := by decide +kernel
theorem double_dst : ∀ n ∈ doubleOps.map sem.dst, n ∈ [0, 1, 2] ∨ 6 ≤ n := by decide +kernel

theorem doubleTo_wf {m : Mem} (hm : WF 9 m) (d : Nat) (xout yout zout x y z : Addr) : WF 9 (doubleTo d xout yout zout x y z m) := exec_wf (wf_enter hm d)

/-- The doubling, with outputs that may be inputs. -/
theorem doubleTo_ok {m : Mem} (hm : WF 9 m) {d : Nat} {xout yout zout x y z : Addr} (hp : ∀ p ∈ [xout, yout, zout, x, y, z], p.1 < d)
    (hxy : xout ≠ yout) (hxz : xout ≠ zout) (hyz : yout ≠ zout) :
    (doubleTo d xout yout zout x y z m xout, doubleTo d xout yout zout x y z m yout, doubleTo d xout yout zout x y z m zout) = pointDouble release (m x, m y, m z) := by
  have hs : ∀ p ∈ [(0, 2), (1, 0), (1, 2)], CurveMem.bind [xout, yout, zout, x, y, z] d p.1 ≠ CurveMem.bind [xout, yout, zout, x, y, z] d p.2 := by
    simp only [List.forall_mem_cons, List.not_mem_nil, false_implies, implies_true, and_true]
    exact ⟨hxz, hxy.symm, hyz⟩
  have h := call_ok (wf_enter hm d) hp [0, 1, 2] _ double_clash hs
  have h0 := h 0 (by decide)
  have h1' := h 1 (by decide)
  have h2' := h 2 (by decide)
  have b0 : CurveMem.bind [xout, yout, zout, x, y, z] d 0 = xout := rfl
  have b1 : CurveMem.bind [xout, yout, zout, x, y, z] d 1 = yout := rfl
  have b2 : CurveMem.bind [xout, yout, zout, x, y, z] d 2 = zout := rfl
  have b3 : CurveMem.bind [xout, yout, zout, x, y, z] d 3 = x := rfl
  have b4 : CurveMem.bind [xout, yout, zout, x, y, z] d 4 = y := rfl
  have b5 : CurveMem.bind [xout, yout, zout, x, y, z] d 5 = z := rfl
  have e3 : m.enter d zero x = m x := enter_ne _ _ _ (Nat.ne_of_lt (hp _ (by simp)))
  have e4 : m.enter d zero y = m y := enter_ne _ _ _ (Nat.ne_of_lt (hp _ (by simp)))
  have e5 : m.enter d zero z = m z := enter_ne _ _ _ (Nat.ne_of_lt (hp _ (by simp)))
  have hr := double_regs fun n => m.enter d zero (CurveMem.bind [xout, yout, zout, x, y, z] d n)
  rw [← h0, ← h1', ← h2'] at hr
  simp only [b0, b1, b2, b3, b4, b5, e3, e4, e5] at hr
  exact hr

theorem doubleTo_frame {m : Mem} (hm : WF 9 m) {d : Nat} {xout yout zout x y z q : Addr} (hq : q.1 < d) (hx : q ≠ xout) (hy : q ≠ yout) (hz : q ≠ zout) :
    doubleTo d xout yout zout x y z m q = m q := by
  refine (call_frame (wf_enter hm d) [0, 1, 2] double_dst q hq ?_).trans (enter_ne _ _ _ (Nat.ne_of_lt hq))
  simp only [List.forall_mem_cons, List.not_mem_nil, false_implies, implies_true, and_true]
  exact ⟨hx, hy, hz⟩

/-! ### Addition -/

theorem mixed_regs (r : Nat → Fe) :
    (sem.regs mixedOps r 0, sem.regs mixedOps r 1, sem.regs mixedOps r 2) = pointAddMixed release (r 3, r 4, r 5) (r 6) (r 7) := by
  simp only [pointAddMixed, id_bind, id_pure]
  simp only [mixedOps, regs_cons, regs_nil]
  simp only [sem, upd, Nat.reduceEqDiff, if_true, if_false, OfNat.ofNat_ne_zero, OfNat.zero_ne_ofNat, Nat.zero_ne_one, Nat.one_ne_zero, OfNat.one_ne_ofNat]

theorem mixed_clash : ∀ p ∈ sem.clash mixedOps [0, 1, 2], (p.1 ≠ p.2 ∧ (8 ≤ p.1 ∨ 8 ≤ p.2)) ∨ p ∈ [(0, 2), (1, 0), (1, 2), (2, 4), (0, 4), (1, 4)] := by decide +kernel
theorem mixed_dst : ∀ n ∈ mixedOps.map sem.dst, n ∈ [0, 1, 2] ∨ 8 ≤ n := by decide +kernel

theorem mixedTo_wf {m : Mem} (hm : WF 9 m) (d : Nat) (xout yout zout x1 y1 z1 x2 y2 : Addr) : WF 9 (mixedTo d xout yout zout x1 y1 z1 x2 y2 m) := exec_wf (wf_enter hm d)

/-- The addition of an affine point: the outputs may be inputs, except for `y1`. -/
theorem mixedTo_ok {m : Mem} (hm : WF 9 m) {d : Nat} {xout yout zout x1 y1 z1 x2 y2 : Addr} (hp : ∀ p ∈ [xout, yout, zout, x1, y1, z1, x2, y2], p.1 < d)
    (hxy : xout ≠ yout) (hxz : xout ≠ zout) (hyz : yout ≠ zout)
    (h1 : y1 ≠ xout) (h2 : y1 ≠ yout) (h3 : y1 ≠ zout) :
    (mixedTo d xout yout zout x1 y1 z1 x2 y2 m xout, mixedTo d xout yout zout x1 y1 z1 x2 y2 m yout, mixedTo d xout yout zout x1 y1 z1 x2 y2 m zout) = pointAddMixed release (m x1, m y1, m z1) (m x2) (m y2) := by
  have hs : ∀ p ∈ [(0, 2), (1, 0), (1, 2), (2, 4), (0, 4), (1, 4)], CurveMem.bind [xout, yout, zout, x1, y1, z1, x2, y2] d p.1 ≠ CurveMem.bind [xout, yout, zout, x1, y1, z1, x2, y2] d p.2 := by
    simp only [List.forall_mem_cons, List.not_mem_nil, false_implies, implies_true, and_true]
    exact ⟨hxz, hxy.symm, hyz, h3.symm, h1.symm, h2.symm⟩
  have h := call_ok (wf_enter hm d) hp [0, 1, 2] _ mixed_clash hs
  have h0 := h 0 (by decide)
  have h1' := h 1 (by decide)
  have h2' := h 2 (by decide)
  have b0 : CurveMem.bind [xout, yout, zout, x1, y1, z1, x2, y2] d 0 = xout := rfl
  have b1 : CurveMem.bind [xout, yout, zout, x1, y1, z1, x2, y2] d 1 = yout := rfl
  have b2 : CurveMem.bind [xout, yout, zout, x1, y1, z1, x2, y2] d 2 = zout := rfl
  have b3 : CurveMem.bind [xout, yout, zout, x1, y1, z1, x2, y2] d 3 = x1 := rfl
  have b4 : CurveMem.bind [xout, yout, zout, x1, y1, z1, x2, y2] d 4 = y1 := rfl
  have b5 : CurveMem.bind [xout, yout, zout, x1, y1, z1, x2, y2] d 5 = z1 := rfl
  have b6 : CurveMem.bind [xout, yout, zout, x1, y1, z1, x2, y2] d 6 = x2 := rfl
  have b7 : CurveMem.bind [xout, yout, zout, x1, y1, z1, x2, y2] d 7 = y2 := rfl
  have e3 : m.enter d zero x1 = m x1 := enter_ne _ _ _ (Nat.ne_of_lt (hp _ (by simp)))
  have e4 : m.enter d zero y1 = m y1 := enter_ne _ _ _ (Nat.ne_of_lt (hp _ (by simp)))
  have e5 : m.enter d zero z1 = m z1 := enter_ne _ _ _ (Nat.ne_of_lt (hp _ (by simp)))
  have e6 : m.enter d zero x2 = m x2 := enter_ne _ _ _ (Nat.ne_of_lt (hp _ (by simp)))
  have e7 : m.enter d zero y2 = m y2 := enter_ne _ _ _ (Nat.ne_of_lt (hp _ (by simp)))
  have hr := mixed_regs fun n => m.enter d zero (CurveMem.bind [xout, yout, zout, x1, y1, z1, x2, y2] d n)
  rw [← h0, ← h1', ← h2'] at hr
  simp only [b0, b1, b2, b3, b4, b5, b6, b7, e3, e4, e5, e6, e7] at hr
  exact hr

theorem mixedTo_frame {m : Mem} (hm : WF 9 m) {d : Nat} {xout yout zout x1 y1 z1 x2 y2 q : Addr} (hq : q.1 < d) (hx : q ≠ xout) (hy : q ≠ yout) (hz : q ≠ zout) :
    mixedTo d xout yout zout x1 y1 z1 x2 y2 m q = m q := by
  refine (call_frame (wf_enter hm d) [0, 1, 2] mixed_dst q hq ?_).trans (enter_ne _ _ _ (Nat.ne_of_lt hq))
  simp only [List.forall_mem_cons, List.not_mem_nil, false_implies, implies_true, and_true]
  exact ⟨hx, hy, hz⟩

theorem add_regs (r : Nat → Fe) :
    (sem.regs addOps r 0, sem.regs addOps r 1, sem.regs addOps r 2) = pointAdd release (r 3, r 4, r 5) (r 6, r 7, r 8) := by
  simp only [pointAdd, id_bind, id_pure]
  simp only [addOps, regs_cons, regs_nil]
  simp only [sem, upd, Nat.reduceEqDiff, if_true, if_false, OfNat.ofNat_ne_zero, OfNat.zero_ne_ofNat, Nat.zero_ne_one, Nat.one_ne_zero, OfNat.one_ne_ofNat]

theorem add_clash : ∀ p ∈ sem.clash addOps [0, 1, 2], (p.1 ≠ p.2 ∧ (9 ≤ p.1 ∨ 9 ≤ p.2)) ∨ p ∈ [(0, 2), (1, 0), (1, 2)] := by decide +kernel
theorem add_dst : ∀ n ∈ addOps.map sem.dst, n ∈ [0, 1, 2] ∨ 9 ≤ n := by decide +kernel

theorem addTo_wf {m : Mem} (hm : WF 9 m) (d : Nat) (xout yout zout x1 y1 z1 x2 y2 z2 : Addr) : WF 9 (addTo d xout yout zout x1 y1 z1 x2 y2 z2 m) := exec_wf (wf_enter hm d)

/-- The addition, with outputs that may be inputs. -/
theorem addTo_ok {m : Mem} (hm : WF 9 m) {d : Nat} {xout yout zout x1 y1 z1 x2 y2 z2 : Addr} (hp : ∀ p ∈ [xout, yout, zout, x1, y1, z1, x2, y2, z2], p.1 < d)
    (hxy : xout ≠ yout) (hxz : xout ≠ zout) (hyz : yout ≠ zout) :
    (addTo d xout yout zout x1 y1 z1 x2 y2 z2 m xout, addTo d xout yout zout x1 y1 z1 x2 y2 z2 m yout, addTo d xout yout zout x1 y1 z1 x2 y2 z2 m zout) = pointAdd release (m x1, m y1, m z1) (m x2, m y2, m z2) := by
  have hs : ∀ p ∈ [(0, 2), (1, 0), (1, 2)], CurveMem.bind [xout, yout, zout, x1, y1, z1, x2, y2, z2] d p.1 ≠ CurveMem.bind [xout, yout, zout, x1, y1, z1, x2, y2, z2] d p.2 := by
    simp only [List.forall_mem_cons, List.not_mem_nil, false_implies, implies_true, and_true]
    exact ⟨hxz, hxy.symm, hyz⟩
  have h := call_ok (wf_enter hm d) hp [0, 1, 2] _ add_clash hs
  have h0 := h 0 (by decide)
  have h1' := h 1 (by decide)
  have h2' := h 2 (by decide)
  have b0 : CurveMem.bind [xout, yout, zout, x1, y1, z1, x2, y2, z2] d 0 = xout := rfl
  have b1 : CurveMem.bind [xout, yout, zout, x1, y1, z1, x2, y2, z2] d 1 = yout := rfl
  have b2 : CurveMem.bind [xout, yout, zout, x1, y1, z1, x2, y2, z2] d 2 = zout := rfl
  have b3 : CurveMem.bind [xout, yout, zout, x1, y1, z1, x2, y2, z2] d 3 = x1 := rfl
  have b4 : CurveMem.bind [xout, yout, zout, x1, y1, z1, x2, y2, z2] d 4 = y1 := rfl
  have b5 : CurveMem.bind [xout, yout, zout, x1, y1, z1, x2, y2, z2] d 5 = z1 := rfl
  have b6 : CurveMem.bind [xout, yout, zout, x1, y1, z1, x2, y2, z2] d 6 = x2 := rfl
  have b7 : CurveMem.bind [xout, yout, zout, x1, y1, z1, x2, y2, z2] d 7 = y2 := rfl
  have b8 : CurveMem.bind [xout, yout, zout, x1, y1, z1, x2, y2, z2] d 8 = z2 := rfl
  have e3 : m.enter d zero x1 = m x1 := enter_ne _ _ _ (Nat.ne_of_lt (hp _ (by simp)))
  have e4 : m.enter d zero y1 = m y1 := enter_ne _ _ _ (Nat.ne_of_lt (hp _ (by simp)))
  have e5 : m.enter d zero z1 = m z1 := enter_ne _ _ _ (Nat.ne_of_lt (hp _ (by simp)))
  have e6 : m.enter d zero x2 = m x2 := enter_ne _ _ _ (Nat.ne_of_lt (hp _ (by simp)))
  have e7 : m.enter d zero y2 = m y2 := enter_ne _ _ _ (Nat.ne_of_lt (hp _ (by simp)))
  have e8 : m.enter d zero z2 = m z2 := enter_ne _ _ _ (Nat.ne_of_lt (hp _ (by simp)))
  have hr := add_regs fun n => m.enter d zero (CurveMem.bind [xout, yout, zout, x1, y1, z1, x2, y2, z2] d n)
  rw [← h0, ← h1', ← h2'] at hr
  simp only [b0, b1, b2, b3, b4, b5, b6, b7, b8, e3, e4, e5, e6, e7, e8] at hr
  exact hr

theorem addTo_frame {m : Mem} (hm : WF 9 m) {d : Nat} {xout yout zout x1 y1 z1 x2 y2 z2 q : Addr} (hq : q.1 < d) (hx : q ≠ xout) (hy : q ≠ yout) (hz : q ≠ zout) :
    addTo d xout yout zout x1 y1 z1 x2 y2 z2 m q = m q := by
  refine (call_frame (wf_enter hm d) [0, 1, 2] add_dst q hq ?_).trans (enter_ne _ _ _ (Nat.ne_of_lt hq))
  simp only [List.forall_mem_cons, List.not_mem_nil, false_implies, implies_true, and_true]
  exact ⟨hx, hy, hz⟩

/-! ### Inversion and affine coordinates -/

theorem regs_squares (k : Nat) : ∀ (n : Nat) (r : Nat → Fe), sem.regs (List.replicate n (.square k k)) r = upd r k (squareN release n (r k))
  | 0, r => by
    funext i
    by_cases h : i = k
    · simp only [upd, h, if_true]; rfl
    · simp only [upd, h, if_false]; rfl
  | n + 1, r => by
    rw [List.replicate_succ]
    show sem.regs (List.replicate n (.square k k)) (upd r k (square release (r k))) = _
    rw [regs_squares k n]
    funext i
    by_cases h : i = k
    · simp only [upd, h, if_true]; rfl
    · simp only [upd, h, if_false]

theorem invert_regs (r : Nat → Fe) : sem.regs invertOps r 0 = invert release (r 1) := by
  simp only [invert, id_bind, id_pure]
  simp only [invertOps, Sem.regs_append, regs_squares, regs_cons, regs_nil]
  simp only [sem, upd, Nat.reduceEqDiff, if_true, if_false, OfNat.ofNat_ne_zero, OfNat.zero_ne_ofNat, Nat.zero_ne_one, Nat.one_ne_zero, OfNat.one_ne_ofNat]

theorem invert_clash : ∀ p ∈ sem.clash invertOps [0], (p.1 ≠ p.2 ∧ (2 ≤ p.1 ∨ 2 ≤ p.2)) ∨ p ∈ ([] : List (Nat × Nat)) := by decide +kernel
theorem invert_dst : ∀ n ∈ invertOps.map sem.dst, n ∈ [0] ∨ 2 ≤ n := by decide +kernel

theorem invertTo_ok {m : Mem} (hm : WF 9 m) {d : Nat} {out a : Addr} (ho : out.1 < d) (ha : a.1 < d) : invertTo d out a m out = invert release (m a) := by
  have hp : ∀ p ∈ [out, a], p.1 < d := by
    simp only [List.forall_mem_cons, List.not_mem_nil, false_implies, implies_true, and_true]
    exact ⟨ho, ha⟩
  have h := call_ok (wf_enter hm d) hp [0] [] invert_clash (fun _ h => absurd h List.not_mem_nil) 0 (by decide)
  have b0 : CurveMem.bind [out, a] d 0 = out := rfl
  have b1 : CurveMem.bind [out, a] d 1 = a := rfl
  rw [invert_regs, b0, b1, enter_ne _ _ _ (Nat.ne_of_lt ha)] at h
  exact h

theorem invertTo_frame {m : Mem} (hm : WF 9 m) {d : Nat} {out a q : Addr} (hq : q.1 < d) (ho : q ≠ out) : invertTo d out a m q = m q := by
  refine (call_frame (wf_enter hm d) [0] invert_dst q hq ?_).trans (enter_ne _ _ _ (Nat.ne_of_lt hq))
  simp only [List.forall_mem_cons, List.not_mem_nil, false_implies, implies_true, and_true]
  exact ho

theorem affine_regs (r : Nat → Fe) : (sem.regs affineOps r 0, sem.regs affineOps r 1) =
    ((mul release (r 2) (square release (r 5)), mul release (r 3) (mul release (r 5) (square release (r 5)))) : Fe × Fe) := by
  simp only [affineOps, regs_cons, regs_nil]
  simp only [sem, upd, Nat.reduceEqDiff, if_true, if_false, OfNat.ofNat_ne_zero, OfNat.zero_ne_ofNat, Nat.zero_ne_one, Nat.one_ne_zero, OfNat.one_ne_ofNat]

theorem affine_clash : ∀ p ∈ sem.clash affineOps [0, 1], (p.1 ≠ p.2 ∧ (5 ≤ p.1 ∨ 5 ≤ p.2)) ∨ p ∈ [(0, 3), (1, 0)] := by decide +kernel

theorem ne_frame {d : Nat} {q : Addr} (hq : q.1 < d) (k : Nat) : q ≠ (d, k) := fun he => by
  rw [he] at hq
  exact Nat.lt_irrefl _ hq

theorem pointToAffineTo_ok {m : Mem} (hm : WF 9 m) {d : Nat} {xout yout x y z : Addr} (hp : ∀ p ∈ [xout, yout, x, y, z], p.1 < d)
    (hxy : xout ≠ yout) (hy : xout ≠ y) :
    (pointToAffineTo d xout yout x y z m xout, pointToAffineTo d xout yout x y z m yout) = pointToAffine release (m x, m y, m z) := by
  have hw := wf_enter hm d
  have hx' := hp x (by simp)
  have hy' := hp y (by simp)
  have hz' := hp z (by simp)
  have ez : m.enter d zero z = m z := enter_ne _ _ _ (Nat.ne_of_lt hz')
  have ex : m.enter d zero x = m x := enter_ne _ _ _ (Nat.ne_of_lt hx')
  have ey : m.enter d zero y = m y := enter_ne _ _ _ (Nat.ne_of_lt hy')
  have hi := invertTo_ok hw (d := d + 1) (out := (d, 5)) (a := z) (Nat.lt_succ_self d) (Nat.lt_succ_of_lt hz')
  have fx := invertTo_frame hw (d := d + 1) (out := (d, 5)) (a := z) (q := x) (Nat.lt_succ_of_lt hx') (ne_frame hx' _)
  have fy := invertTo_frame hw (d := d + 1) (out := (d, 5)) (a := z) (q := y) (Nat.lt_succ_of_lt hy') (ne_frame hy' _)
  have hwi : WF 9 (invertTo (d + 1) (d, 5) z (m.enter d zero)) := exec_wf (wf_enter hw _)
  have h := call_ok hwi hp [0, 1] [(0, 3), (1, 0)] affine_clash (by
    simp only [List.forall_mem_cons, List.not_mem_nil, false_implies, implies_true, and_true]
    exact ⟨hy, hxy.symm⟩)
  have h0 := h 0 (by decide)
  have h1 := h 1 (by decide)
  have hr := affine_regs fun n => invertTo (d + 1) (d, 5) z (m.enter d zero) (CurveMem.bind [xout, yout, x, y, z] d n)
  have b0 : CurveMem.bind [xout, yout, x, y, z] d 0 = xout := rfl
  have b1 : CurveMem.bind [xout, yout, x, y, z] d 1 = yout := rfl
  have b2 : CurveMem.bind [xout, yout, x, y, z] d 2 = x := rfl
  have b3 : CurveMem.bind [xout, yout, x, y, z] d 3 = y := rfl
  have b5 : CurveMem.bind [xout, yout, x, y, z] d 5 = (d, 5) := rfl
  rw [← h0, ← h1] at hr
  simp only [b0, b1, b2, b3, b5, hi, fx, fy, ez, ex, ey] at hr
  simp only [pointToAffine, id_bind, id_pure]
  exact hr

theorem toAffineFrom_ok (c : CurveP256) {m : Mem} (hm : WF 9 m) {d : Nat} {x y z : Addr} (hx : x.1 < d) (hy : y.1 < d) (hz : z.1 < d) :
    toAffineFrom c d x y z m = toAffine release c (m x, m y, m z) := by
  have h := pointToAffineTo_ok (wf_enter hm d) (d := d + 1) (xout := (d, 3)) (yout := (d, 4)) (x := x) (y := y) (z := z) (by
    simp only [List.forall_mem_cons, List.not_mem_nil, false_implies, implies_true, and_true]
    omega) (by simp) (ne_frame hy _).symm
  rw [enter_ne _ _ _ (Nat.ne_of_lt hx), enter_ne _ _ _ (Nat.ne_of_lt hy), enter_ne _ _ _ (Nat.ne_of_lt hz)] at h
  simp only [toAffine, id_bind, id_pure]
  rw [← h]
  rfl

/-! ### Three arrays at a time -/

/-- The memory after three stores. -/
def put3 (m : Mem) (x y z : Addr) (t : Jac) : Mem := ((m.put x t.1).put y t.2.1).put z t.2.2

/-- Three different addresses. -/
structure Apart (x y z : Addr) : Prop where
  xy : x ≠ y
  xz : x ≠ z
  yz : y ≠ z

/-- Three coordinates with nine limbs. -/
structure Nine (t : Jac) : Prop where
  x : t.1.length = 9
  y : t.2.1.length = 9
  z : t.2.2.length = 9

theorem put3_x {x y z : Addr} (h : Apart x y z) (m : Mem) (t : Jac) : put3 m x y z t x = t.1 := by
  rw [put3, put_ne _ _ h.xz, put_ne _ _ h.xy, put_same]
theorem put3_y {x y z : Addr} (h : Apart x y z) (m : Mem) (t : Jac) : put3 m x y z t y = t.2.1 := by
  rw [put3, put_ne _ _ h.yz, put_same]
theorem put3_z (x y z : Addr) (m : Mem) (t : Jac) : put3 m x y z t z = t.2.2 := by
  rw [put3, put_same]
theorem put3_ne {x y z q : Addr} (hx : q ≠ x) (hy : q ≠ y) (hz : q ≠ z) (m : Mem) (t : Jac) : put3 m x y z t q = m q := by
  rw [put3, put_ne _ _ hz, put_ne _ _ hy, put_ne _ _ hx]
theorem put3_wf {m : Mem} (hm : WF 9 m) (x y z : Addr) {t : Jac} (ht : Nine t) : WF 9 (put3 m x y z t) :=
  ((hm.put x ht.x).put y ht.y).put z ht.z

theorem put3_put3 {x y z : Addr} (h : Apart x y z) (m : Mem) (t u : Jac) : put3 (put3 m x y z t) x y z u = put3 m x y z u := by
  funext q
  by_cases hx : q = x
  · rw [hx, put3_x h, put3_x h]
  · by_cases hy : q = y
    · rw [hy, put3_y h, put3_y h]
    · by_cases hz : q = z
      · rw [hz, put3_z, put3_z]
      · rw [put3_ne hx hy hz, put3_ne hx hy hz, put3_ne hx hy hz]

theorem copyTo_eq {m : Mem} (hm : WF 9 m) (out a : Addr) (c : W) : copyTo out a c m = m.put out (copyConditional (m out) (m a) c) := by
  rw [copyTo, loop1_eq hm, ofFn_zipWith (fun x y => x ^^^ (c &&& (y ^^^ x))) (hm _) (hm _)]
  rfl

theorem length_copy {o a : Fe} (ho : o.length = 9) (ha : a.length = 9) (c : W) : (copyConditional o a c).length = 9 := length_zipWith ho ha

theorem copy3_eq {m : Mem} (hm : WF 9 m) {x y z sx sy sz : Addr} (h : Apart x y z) (h1 : sy ≠ x) (h2 : sz ≠ x) (h3 : sz ≠ y) (c : W) :
    copyTo z sz c (copyTo y sy c (copyTo x sx c m)) = put3 m x y z (copyJac (m x, m y, m z) (m sx, m sy, m sz) c) := by
  have w1 : WF 9 (m.put x (copyConditional (m x) (m sx) c)) := hm.put _ (length_copy (hm _) (hm _) c)
  have w2 : WF 9 ((m.put x (copyConditional (m x) (m sx) c)).put y (copyConditional (m y) (m sy) c)) := w1.put _ (length_copy (hm _) (hm _) c)
  rw [copyTo_eq hm, copyTo_eq w1, put_ne _ _ h.xy.symm, put_ne _ _ h1, copyTo_eq w2, put_ne _ _ h.yz.symm, put_ne _ _ h.xz.symm, put_ne _ _ h3, put_ne _ _ h2]
  rfl

theorem copy2_eq {m : Mem} (hm : WF 9 m) {x y z sx sy : Addr} (h : Apart x y z) (h1 : sy ≠ x) (c : W) :
    copyOneTo z c (copyTo y sy c (copyTo x sx c m)) = put3 m x y z (copyJac (m x, m y, m z) (m sx, m sy, one) c) := by
  have w1 : WF 9 (m.put x (copyConditional (m x) (m sx) c)) := hm.put _ (length_copy (hm _) (hm _) c)
  rw [copyTo_eq hm, copyTo_eq w1, put_ne _ _ h.xy.symm, put_ne _ _ h1, copyOneTo, put_ne _ _ h.yz.symm, put_ne _ _ h.xz.symm]
  rfl

theorem copyJac_nine {s t : Jac} (hs : Nine s) (ht : Nine t) (c : W) : Nine (copyJac s t c) :=
  ⟨length_copy hs.x ht.x c, length_copy hs.y ht.y c, length_copy hs.z ht.z c⟩

/-! ### What a round keeps -/

/-- The arrays that the rounds of a scalar multiplication in frame `d` leave alone: those of its callers and the table. -/
def Kept (d : Nat) (q : Addr) : Prop := q.1 < d ∨ (q.1 = d ∧ 16 ≤ q.2)

theorem Kept.lt {d : Nat} {q : Addr} (h : Kept d q) : q.1 < d + 1 := by
  rcases h with h | h
  · exact Nat.lt_succ_of_lt h
  · rw [h.1]; exact Nat.lt_succ_self d

theorem Kept.ne {d : Nat} {q : Addr} (h : Kept d q) {k : Nat} (hk : k < 16) : q ≠ (d, k) := fun he => by
  rw [he] at h
  rcases h with h | h
  · exact Nat.lt_irrefl _ h
  · exact Nat.lt_irrefl _ (Nat.lt_of_lt_of_le hk h.2)

/-- The accumulator has the value `s`, and the arrays that are kept are as in `m`. -/
structure Holds (d : Nat) (x y z : Addr) (m m' : Mem) (s : Jac) : Prop where
  wf : WF 9 m'
  acc : (m' x, m' y, m' z) = s
  rest : ∀ q, Kept d q → q ≠ x → q ≠ y → q ≠ z → m' q = m q

theorem Holds.nine {d : Nat} {x y z : Addr} {m m' : Mem} {s : Jac} (h : Holds d x y z m m' s) : Nine s := by
  rw [← h.acc]
  exact ⟨h.wf _, h.wf _, h.wf _⟩

/-- The outputs of a scalar multiplication in frame `d`. -/
structure Outs (d : Nat) (x y z : Addr) : Prop extends Apart x y z where
  hx : x.1 < d
  hy : y.1 < d
  hz : z.1 < d

theorem Holds.double {d : Nat} {x y z : Addr} {m m' : Mem} {s : Jac} (ho : Outs d x y z) (h : Holds d x y z m m' s) :
    Holds d x y z m (doubleTo (d + 1) x y z x y z m') (pointDouble release s) := by
  have h1 := doubleTo_ok h.wf (d := d + 1) (xout := x) (yout := y) (zout := z) (x := x) (y := y) (z := z) (by
    have := ho.hx; have := ho.hy; have := ho.hz
    simp only [List.forall_mem_cons, List.not_mem_nil, false_implies, implies_true, and_true]
    omega) ho.xy ho.xz ho.yz
  rw [h.acc] at h1
  exact ⟨doubleTo_wf h.wf _ _ _ _ _ _ _, h1, fun q hq hx hy hz => by rw [doubleTo_frame h.wf hq.lt hx hy hz, h.rest q hq hx hy hz]⟩

theorem Holds.put3 {d : Nat} {x y z : Addr} {m m' : Mem} {s t : Jac} (ho : Outs d x y z) (h : Holds d x y z m m' s) (ht : Nine t) :
    Holds d x y z m (put3 m' x y z t) t :=
  ⟨put3_wf h.wf _ _ _ ht, by rw [put3_x ho.toApart, put3_y ho.toApart, put3_z], fun q hq hx hy hz => by rw [put3_ne hx hy hz, h.rest q hq hx hy hz]⟩

/-- The end of a round: the copies from the point `p`, made before, and from the sum `t` in the arrays tx, ty, tz. -/
theorem merge_ok {d : Nat} {x y z tx ty tz : Addr} {m m' : Mem} {s t : Jac} (ho : Outs d x y z) (h : Holds d x y z m m' s)
    (ht : (m' tx, m' ty, m' tz) = t) (htx : ∀ q ∈ [tx, ty, tz], q ≠ x ∧ q ≠ y ∧ q ≠ z) (p : Jac) (hp : Nine p) (index mask : W) :
    Holds d x y z m (mergeTo x y z tx ty tz index (put3 m' x y z (copyJac s p mask), mask)).1 (mergeStep (s, mask) p t index).1 ∧
    (mergeTo x y z tx ty tz index (put3 m' x y z (copyJac s p mask), mask)).2 = (mergeStep (s, mask) p t index).2 := by
  have h1 := h.put3 ho (copyJac_nine h.nine hp mask)
  have hn : Nine t := by rw [← ht]; exact ⟨h.wf _, h.wf _, h.wf _⟩
  simp only [List.forall_mem_cons, List.not_mem_nil, false_implies, implies_true, and_true] at htx
  obtain ⟨⟨a1, a2, a3⟩, ⟨b1, b2, b3⟩, c1, c2, c3⟩ := htx
  refine ⟨?_, rfl⟩
  simp only [mergeTo, mergeStep]
  rw [copy3_eq h1.wf ho.toApart b1 c1 c2, h1.acc, put3_ne a1 a2 a3, put3_ne b1 b2 b3, put3_ne c1 c2 c3, ht]
  exact h1.put3 ho (copyJac_nine (copyJac_nine h.nine hp mask) hn _)

/-! ### The base point -/

theorem selectAffine_fold (index : W) : ∀ (l : List Nat) (s : Fe × Fe × List W), s.1.length = 9 → s.2.1.length = 9 → 18 * l.length ≤ s.2.2.length →
    (l.foldl (selectAffineStep index) s).1.length = 9 ∧ (l.foldl (selectAffineStep index) s).2.1.length = 9
  | [], _, h1, h2, _ => ⟨h1, h2⟩
  | i :: l, s, h1, h2, h3 => by
    rw [List.length_cons] at h3
    refine selectAffine_fold index l _ ?_ ?_ ?_
    · simp only [selectAffineStep, orMasked, List.length_zipWith, h1]
      omega
    · simp only [selectAffineStep, orMasked, List.length_zipWith, h2, List.length_drop]
      omega
    · simp only [selectAffineStep, List.length_drop]
      omega

theorem length_precomputed : precomputed.length = 540 := by decide +kernel

theorem selectAffine_nine (j : Nat) (index : W) :
    (selectAffine (precomputed.drop (if j = 0 then 0 else 270)) index).1.length = 9 ∧
    (selectAffine (precomputed.drop (if j = 0 then 0 else 270)) index).2.length = 9 := by
  have h : 270 ≤ (precomputed.drop (if j = 0 then 0 else 270)).length := by
    rw [List.length_drop, length_precomputed]
    split <;> decide
  generalize precomputed.drop (if j = 0 then 0 else 270) = t at *
  exact selectAffine_fold index (List.range' 1 15) (zero, zero, t) rfl rfl (by rw [List.length_range']; exact h)

theorem baseRoundTo_ok {d : Nat} {x y z : Addr} (ho : Outs d x y z) {m m' : Mem} {s : Jac} (h : Holds d x y z m m' s) (sc : Bytes) (i : Nat) (mask : W) (j : Nat) :
    Holds d x y z m (baseRoundTo d x y z sc i (m', mask) j).1 (baseRound release sc i (s, mask) j : Jac × W).1 ∧
    (baseRoundTo d x y z sc i (m', mask) j).2 = (baseRound release sc i (s, mask) j : Jac × W).2 := by
  simp only [baseRoundTo, baseRound, id_bind, id_pure, selectAffineTo]
  generalize getBit sc (31 - i + j) ||| getBit sc (95 - i + j) <<< 1 ||| getBit sc (159 - i + j) <<< 2 ||| getBit sc (223 - i + j) <<< 3 = index
  obtain ⟨n1, n2⟩ := selectAffine_nine j index
  generalize selectAffine (precomputed.drop (if j = 0 then 0 else 270)) index = p at *
  have w1 : WF 9 ((m'.put (d, 3) p.1).put (d, 4) p.2) := (h.wf.put _ n1).put _ n2
  have r1 : ∀ q : Addr, q ≠ (d, 3) → q ≠ (d, 4) → ((m'.put (d, 3) p.1).put (d, 4) p.2) q = m' q := fun q h1 h2 => by rw [put_ne _ _ h2, put_ne _ _ h1]
  have p3 : ((m'.put (d, 3) p.1).put (d, 4) p.2) (d, 3) = p.1 := by rw [put_ne _ _ (by simp), put_same]
  have p4 : ((m'.put (d, 3) p.1).put (d, 4) p.2) (d, 4) = p.2 := put_same _ _ _
  generalize (m'.put (d, 3) p.1).put (d, 4) p.2 = m1 at *
  have hm := mixedTo_ok w1 (d := d + 1) (xout := (d, 5)) (yout := (d, 6)) (zout := (d, 7)) (x1 := x) (y1 := y) (z1 := z) (x2 := (d, 3)) (y2 := (d, 4)) (by
    have := ho.hx; have := ho.hy; have := ho.hz
    simp only [List.forall_mem_cons, List.not_mem_nil, false_implies, implies_true, and_true]
    omega) (by simp) (by simp) (by simp) (ne_frame ho.hy _) (ne_frame ho.hy _) (ne_frame ho.hy _)
  have w2 := mixedTo_wf w1 (d + 1) (d, 5) (d, 6) (d, 7) x y z (d, 3) (d, 4)
  have f2 : ∀ q : Addr, q.1 < d + 1 → q ≠ (d, 5) → q ≠ (d, 6) → q ≠ (d, 7) → mixedTo (d + 1) (d, 5) (d, 6) (d, 7) x y z (d, 3) (d, 4) m1 q = m1 q :=
    fun q a b c e => mixedTo_frame w1 a b c e
  rw [p3, p4, r1 x (ne_frame ho.hx _) (ne_frame ho.hx _), r1 y (ne_frame ho.hy _) (ne_frame ho.hy _), r1 z (ne_frame ho.hz _) (ne_frame ho.hz _), h.acc] at hm
  generalize mixedTo (d + 1) (d, 5) (d, 6) (d, 7) x y z (d, 3) (d, 4) m1 = m2 at *
  have k : ∀ q : Addr, q.1 < d → m2 q = m' q := fun q hq => by
    rw [f2 q (Nat.lt_succ_of_lt hq) (ne_frame hq _) (ne_frame hq _) (ne_frame hq _), r1 q (ne_frame hq _) (ne_frame hq _)]
  have h2 : Holds d x y z m m2 s := by
    refine ⟨w2, ?_, fun q hq hx hy hz => ?_⟩
    · rw [k x ho.hx, k y ho.hy, k z ho.hz, h.acc]
    · rw [f2 q hq.lt (hq.ne (by decide)) (hq.ne (by decide)) (hq.ne (by decide)), r1 q (hq.ne (by decide)) (hq.ne (by decide)), h.rest q hq hx hy hz]
  have q3 : m2 (d, 3) = p.1 := by rw [f2 _ (Nat.lt_succ_self d) (by simp) (by simp) (by simp), p3]
  have q4 : m2 (d, 4) = p.2 := by rw [f2 _ (Nat.lt_succ_self d) (by simp) (by simp) (by simp), p4]
  rw [copy2_eq w2 ho.toApart (ne_frame ho.hx 4).symm, h2.acc, q3, q4]
  exact merge_ok ho h2 hm (by
    simp only [List.forall_mem_cons, List.not_mem_nil, false_implies, implies_true, and_true]
    exact ⟨⟨(ne_frame ho.hx _).symm, (ne_frame ho.hy _).symm, (ne_frame ho.hz _).symm⟩, ⟨(ne_frame ho.hx _).symm, (ne_frame ho.hy _).symm, (ne_frame ho.hz _).symm⟩,
      (ne_frame ho.hx _).symm, (ne_frame ho.hy _).symm, (ne_frame ho.hz _).symm⟩) _ ⟨n1, n2, rfl⟩ index mask

/-- The two runs agree. -/
def Agree (d : Nat) (x y z : Addr) (m : Mem) (a : Mem × W) (b : Jac × W) : Prop := Holds d x y z m a.1 b.1 ∧ a.2 = b.2

theorem baseRoundTo_agree {d : Nat} {x y z : Addr} (ho : Outs d x y z) {m : Mem} (sc : Bytes) (i j : Nat) {a : Mem × W} {b : Jac × W} (h : Agree d x y z m a b) :
    Agree d x y z m (baseRoundTo d x y z sc i a j) (baseRound release sc i b j) := by
  obtain ⟨m', mask⟩ := a
  obtain ⟨s, mask'⟩ := b
  obtain ⟨h1, h2⟩ := h
  cases h2
  exact baseRoundTo_ok ho h1 sc i mask j

theorem foldlM_agree {α : Type} {d : Nat} {x y z : Addr} {m : Mem} (f : Mem × W → α → Mem × W) (g : Jac × W → α → Id (Jac × W))
    (hs : ∀ a b i, Agree d x y z m a b → Agree d x y z m (f a i) (g b i)) :
    ∀ (l : List α) (a : Mem × W) (b : Jac × W), Agree d x y z m a b → Agree d x y z m (l.foldl f a) (List.foldlM g b l : Id (Jac × W))
  | [], _, _, h => h
  | i :: l, a, b, h => by
    rw [List.foldl_cons, List.foldlM_cons, id_bind]
    exact foldlM_agree f g hs l _ _ (hs a b i h)

theorem baseOuterTo_agree {d : Nat} {x y z : Addr} (ho : Outs d x y z) {m : Mem} (sc : Bytes) (a : Mem × W) (b : Jac × W) (i : Nat) (h : Agree d x y z m a b) :
    Agree d x y z m (baseOuterTo d x y z sc a i) (baseOuter release sc b i) := by
  have h1 : Agree d x y z m (if i ≠ 0 then doubleTo (d + 1) x y z x y z a.1 else a.1, a.2) (if i ≠ 0 then (pointDouble release b.1, b.2) else b) := by
    split
    · exact ⟨h.1.double ho, h.2⟩
    · exact h
  have h2 := baseRoundTo_agree ho sc i 32 (baseRoundTo_agree ho sc i 0 h1)
  have e : baseOuter release sc b i = baseRound release sc i (baseRound release sc i (if i ≠ 0 then (pointDouble release b.1, b.2) else b) 0) 32 := by
    unfold baseOuter
    split <;> rfl
  rw [e]
  exact h2

theorem start_agree {d : Nat} {x y z : Addr} (ho : Outs d x y z) {m : Mem} (hm : WF 9 m) (mask : W) :
    Agree d x y z m (((m.put x zero).put y zero).put z zero, mask) ((zero, zero, zero), mask) := by
  refine ⟨⟨((hm.put x (v := zero) rfl).put y (v := zero) rfl).put z rfl, ?_, fun q hq hx hy hz => ?_⟩, rfl⟩
  · dsimp only
    rw [put_same, put_ne _ _ ho.yz, put_same, put_ne _ _ ho.xz, put_ne _ _ ho.xy, put_same]
  · dsimp only
    rw [put_ne _ _ hz, put_ne _ _ hy, put_ne _ _ hx]

theorem scalarBaseMultTo_ok {d : Nat} {x y z : Addr} (ho : Outs d x y z) {m : Mem} (hm : WF 9 m) (sc : Bytes) :
    Holds d x y z (m.enter d zero) (scalarBaseMultTo d x y z sc m) (scalarBaseMult release sc) := by
  have h := foldlM_agree (baseOuterTo d x y z sc) (baseOuter release sc) (baseOuterTo_agree ho sc) (List.range 32) _ _
    (start_agree ho (wf_enter hm d) 0xffffffff#32)
  exact h.1

/-! ### Any point -/

/-- The entries of the table in frame `d`. -/
def readTab (d : Nat) (m : Mem) : List Jac := (List.range 16).map fun i => (m (tab d i 0), m (tab d i 1), m (tab d i 2))

theorem readTab_getD {d i : Nat} (hi : i < 16) (m : Mem) : (readTab d m).getD i ([], [], []) = (m (tab d i 0), m (tab d i 1), m (tab d i 2)) := by
  rw [List.getD_eq_getElem?_getD, List.getElem?_eq_getElem (by simpa [readTab] using hi)]
  simp [readTab]

theorem readTab_set {d i : Nat} {m m' : Mem} (h : ∀ k j, k < 16 → j < 3 → k ≠ i → m' (tab d k j) = m (tab d k j)) (t : Jac)
    (ht : (m' (tab d i 0), m' (tab d i 1), m' (tab d i 2)) = t) : readTab d m' = (readTab d m).set i t := by
  apply List.ext_getElem
  · simp [readTab]
  · intro k h1 h2
    have hk : k < 16 := by simpa [readTab] using h1
    rw [List.getElem_set]
    by_cases hki : i = k
    · subst hki
      simp only [if_true, ← ht]
      simp [readTab]
    · have hki' : k ≠ i := fun he => hki he.symm
      simp only [hki, if_false]
      simp only [readTab, List.getElem_map, List.getElem_range]
      rw [h k 0 hk (by decide) hki', h k 1 hk (by decide) hki', h k 2 hk (by decide) hki']

theorem tab_ne {d i j k l : Nat} (hj : j < 3) (hl : l < 3) (h : i ≠ k ∨ j ≠ l) : tab d i j ≠ tab d k l := by
  intro he
  have := congrArg Prod.snd he
  simp only [tab] at this
  omega

theorem tab_kept (d i j : Nat) : Kept d (tab d i j) := by
  refine Or.inr ⟨rfl, ?_⟩
  show 16 ≤ 16 + 3 * i + j
  omega

theorem tab_low {d : Nat} {q : Addr} (h : q.1 < d) (i j : Nat) : q ≠ tab d i j := ne_frame h _

/-- The state of the loop that makes the table. -/
structure Made (d : Nat) (m m' : Mem) (t : List Jac) : Prop where
  wf : WF 9 m'
  tab : readTab d m' = t
  rest : ∀ q : Addr, q.1 < d → m' q = m q

theorem tableRoundTo_ok {d : Nat} {x y : Addr} (hx : x.1 < d) (hy : y.1 < d) {m m' : Mem} {t : List Jac} (h : Made d m m' t) (i : Nat) (hi : 2 ≤ i)
    (hi' : i < 15) : Made d m (tableRoundTo d x y m' i) (tableRound release (m x) (m y) t i : List Jac) := by
  have low : ∀ k j, (tab d k j).1 < d + 1 := fun k j => Nat.lt_succ_self d
  have h1 := doubleTo_ok h.wf (d := d + 1) (xout := tab d i 0) (yout := tab d i 1) (zout := tab d i 2) (x := tab d (i / 2) 0) (y := tab d (i / 2) 1)
    (z := tab d (i / 2) 2) (by
      simp only [List.forall_mem_cons, List.not_mem_nil, false_implies, implies_true, and_true]
      exact ⟨low _ _, low _ _, low _ _, low _ _, low _ _, low _ _⟩)
    (tab_ne (by decide) (by decide) (Or.inr (by decide))) (tab_ne (by decide) (by decide) (Or.inr (by decide))) (tab_ne (by decide) (by decide) (Or.inr (by decide)))
  have w1 := doubleTo_wf h.wf (d + 1) (tab d i 0) (tab d i 1) (tab d i 2) (tab d (i / 2) 0) (tab d (i / 2) 1) (tab d (i / 2) 2)
  have f1 : ∀ q : Addr, q.1 < d + 1 → q ≠ tab d i 0 → q ≠ tab d i 1 → q ≠ tab d i 2 →
      doubleTo (d + 1) (tab d i 0) (tab d i 1) (tab d i 2) (tab d (i / 2) 0) (tab d (i / 2) 1) (tab d (i / 2) 2) m' q = m' q :=
    fun q a b c e => doubleTo_frame h.wf a b c e
  rw [← readTab_getD (by omega : i / 2 < 16), h.tab] at h1
  simp only [tableRoundTo, tableRound, id_bind, id_pure]
  generalize doubleTo (d + 1) (tab d i 0) (tab d i 1) (tab d i 2) (tab d (i / 2) 0) (tab d (i / 2) 1) (tab d (i / 2) 2) m' = m1 at *
  generalize (pointDouble release (t.getD (i / 2) ([], [], [])) : Id Jac) = D at *
  have t1 : readTab d m1 = t.set i D := by
    rw [← h.tab]
    exact readTab_set (fun k j _ hj hk => f1 _ (low k j) (tab_ne hj (by decide) (Or.inl hk)) (tab_ne hj (by decide) (Or.inl hk)) (tab_ne hj (by decide) (Or.inl hk)))
      D h1
  have h2 := mixedTo_ok w1 (d := d + 1) (xout := tab d (i + 1) 0) (yout := tab d (i + 1) 1) (zout := tab d (i + 1) 2) (x1 := tab d i 0) (y1 := tab d i 1)
    (z1 := tab d i 2) (x2 := x) (y2 := y) (by
      simp only [List.forall_mem_cons, List.not_mem_nil, false_implies, implies_true, and_true]
      exact ⟨low _ _, low _ _, low _ _, low _ _, low _ _, low _ _, Nat.lt_succ_of_lt hx, Nat.lt_succ_of_lt hy⟩)
    (tab_ne (by decide) (by decide) (Or.inr (by decide))) (tab_ne (by decide) (by decide) (Or.inr (by decide))) (tab_ne (by decide) (by decide) (Or.inr (by decide)))
    (tab_ne (by decide) (by decide) (by omega)) (tab_ne (by decide) (by decide) (by omega)) (tab_ne (by decide) (by decide) (by omega))
  have w2 := mixedTo_wf w1 (d + 1) (tab d (i + 1) 0) (tab d (i + 1) 1) (tab d (i + 1) 2) (tab d i 0) (tab d i 1) (tab d i 2) x y
  have f2 : ∀ q : Addr, q.1 < d + 1 → q ≠ tab d (i + 1) 0 → q ≠ tab d (i + 1) 1 → q ≠ tab d (i + 1) 2 →
      mixedTo (d + 1) (tab d (i + 1) 0) (tab d (i + 1) 1) (tab d (i + 1) 2) (tab d i 0) (tab d i 1) (tab d i 2) x y m1 q = m1 q :=
    fun q a b c e => mixedTo_frame w1 a b c e
  have k1 : ∀ q : Addr, q.1 < d → m1 q = m q := fun q hq => by
    rw [f1 q (Nat.lt_succ_of_lt hq) (tab_low hq _ _) (tab_low hq _ _) (tab_low hq _ _), h.rest q hq]
  rw [← readTab_getD (by omega : i < 16), t1, k1 x hx, k1 y hy] at h2
  generalize mixedTo (d + 1) (tab d (i + 1) 0) (tab d (i + 1) 1) (tab d (i + 1) 2) (tab d i 0) (tab d i 1) (tab d i 2) x y m1 = m2 at *
  refine ⟨w2, ?_, fun q hq => ?_⟩
  · rw [← t1]
    exact readTab_set (fun k j _ hj hk => f2 _ (low k j) (tab_ne hj (by decide) (Or.inl hk)) (tab_ne hj (by decide) (Or.inl hk)) (tab_ne hj (by decide) (Or.inl hk)))
      _ (by rw [t1]; exact h2)
  · rw [f2 q (Nat.lt_succ_of_lt hq) (tab_low hq _ _) (tab_low hq _ _) (tab_low hq _ _), k1 q hq]

theorem tableRounds_ok {d : Nat} {x y : Addr} (hx : x.1 < d) (hy : y.1 < d) {m : Mem} : ∀ (l : List Nat), (∀ i ∈ l, 2 ≤ i ∧ i < 15) →
    ∀ (m' : Mem) (t : List Jac), Made d m m' t → Made d m (l.foldl (tableRoundTo d x y) m') (List.foldlM (tableRound release (m x) (m y)) t l : Id (List Jac))
  | [], _, _, _, h => h
  | i :: l, hl, m', t, h => by
    rw [List.foldl_cons, List.foldlM_cons, id_bind]
    obtain ⟨h1, h2⟩ := hl i List.mem_cons_self
    exact tableRounds_ok hx hy l (fun k hk => hl k (List.mem_cons_of_mem _ hk)) _ _ (tableRoundTo_ok hx hy h i h1 h2)

theorem table_start {d : Nat} {x y : Addr} (hx : x.1 < d) (hy : y.1 < d) {m : Mem} (hm : WF 9 m) :
    Made d m ((((m.enter d zero).put (tab d 1 0) (m.enter d zero x)).put (tab d 1 1) ((m.enter d zero).put (tab d 1 0) (m.enter d zero x) y)).put (tab d 1 2) one)
      ((List.replicate 16 (zero, zero, zero)).set 1 (m x, m y, one)) := by
  have ex : m.enter d zero x = m x := enter_ne _ _ _ (Nat.ne_of_lt hx)
  have ey : m.enter d zero y = m y := enter_ne _ _ _ (Nat.ne_of_lt hy)
  rw [put_ne _ _ (tab_low hy 1 0), ex, ey]
  refine ⟨(((wf_enter hm d).put _ (hm x)).put _ (hm y)).put _ rfl, ?_, fun q hq => ?_⟩
  · have e : readTab d (m.enter d zero) = List.replicate 16 (zero, zero, zero) := by
      simp only [readTab, tab, enter_same]
      rfl
    rw [← e]
    refine readTab_set (fun k j _ hj hk => ?_) _ ?_
    · rw [put_ne _ _ (tab_ne hj (by decide) (Or.inl hk)), put_ne _ _ (tab_ne hj (by decide) (Or.inl hk)), put_ne _ _ (tab_ne hj (by decide) (Or.inl hk))]
    · have t01 : tab d 1 0 ≠ tab d 1 1 := tab_ne (by decide) (by decide) (Or.inr (by decide))
      have t02 : tab d 1 0 ≠ tab d 1 2 := tab_ne (by decide) (by decide) (Or.inr (by decide))
      have t12 : tab d 1 1 ≠ tab d 1 2 := tab_ne (by decide) (by decide) (Or.inr (by decide))
      rw [put_same, put_ne _ _ t12, put_same, put_ne _ _ t02, put_ne _ _ t01, put_same]
  · rw [put_ne _ _ (tab_low hq _ _), put_ne _ _ (tab_low hq _ _), put_ne _ _ (tab_low hq _ _), enter_ne _ _ _ (Nat.ne_of_lt hq)]

theorem or_eq {m : Mem} (hm : WF 9 m) (out a : Addr) (c : W) : loop1 9 (fun x t => x ||| (t &&& c)) out a m = m.put out (orMasked (m out) (m a) c) := by
  rw [loop1_eq hm, ofFn_zipWith (fun x t => x ||| (t &&& c)) (hm _) (hm _)]
  rfl

theorem select_fold {d : Nat} {m : Mem} (hm : WF 9 m) (index : W) : ∀ (l : List Nat), (∀ i ∈ l, i < 16) → ∀ s : Jac, Nine s →
    l.foldl (selectStepTo (d, 5) (d, 6) (d, 7) (tab d) index) (put3 m (d, 5) (d, 6) (d, 7) s) =
      put3 m (d, 5) (d, 6) (d, 7) (l.foldl (selectJacobianStep (readTab d m) index) s) ∧ Nine (l.foldl (selectJacobianStep (readTab d m) index) s)
  | [], _, _, h => ⟨rfl, h⟩
  | i :: l, hl, s, h => by
    have ha : Apart (d, 5) (d, 6) (d, 7) := ⟨by simp, by simp, by simp⟩
    have hi := hl i List.mem_cons_self
    have nt : ∀ j k, k < 16 → tab d i j ≠ (d, k) := fun j k hk => (tab_kept d i j).ne hk
    have hn : ∀ c, Nine (orMasked s.1 (m (tab d i 0)) c, orMasked s.2.1 (m (tab d i 1)) c, orMasked s.2.2 (m (tab d i 2)) c) := fun c =>
      ⟨length_zipWith h.x (hm _), length_zipWith h.y (hm _), length_zipWith h.z (hm _)⟩
    have e : selectStepTo (d, 5) (d, 6) (d, 7) (tab d) index (put3 m (d, 5) (d, 6) (d, 7) s) i =
        put3 m (d, 5) (d, 6) (d, 7) (selectJacobianStep (readTab d m) index s i) := by
      simp only [selectStepTo, selectJacobianStep, readTab_getD hi]
      suffices key : ∀ c : W, loop1 9 (fun x t => x ||| (t &&& c)) (d, 7) (tab d i 2) (loop1 9 (fun x t => x ||| (t &&& c)) (d, 6) (tab d i 1)
          (loop1 9 (fun x t => x ||| (t &&& c)) (d, 5) (tab d i 0) (put3 m (d, 5) (d, 6) (d, 7) s))) = put3 m (d, 5) (d, 6) (d, 7)
            (orMasked s.1 (m (tab d i 0)) c, orMasked s.2.1 (m (tab d i 1)) c, orMasked s.2.2 (m (tab d i 2)) c) from key _
      intro c
      have w0 := put3_wf hm (d, 5) (d, 6) (d, 7) h
      have w1 := w0.put (d, 5) (v := orMasked s.1 (m (tab d i 0)) c) (hn c).x
      have w2 := w1.put (d, 6) (v := orMasked s.2.1 (m (tab d i 1)) c) (hn c).y
      have g : ∀ j, put3 m (d, 5) (d, 6) (d, 7) s (tab d i j) = m (tab d i j) := fun j =>
        put3_ne (nt j 5 (by decide)) (nt j 6 (by decide)) (nt j 7 (by decide)) m s
      rw [or_eq w0, put3_x ha, g 0, or_eq w1, put_ne _ _ ha.xy.symm, put3_y ha, put_ne _ _ (nt 1 5 (by decide)), g 1, or_eq w2, put_ne _ _ ha.yz.symm,
        put_ne _ _ ha.xz.symm, put3_z, put_ne _ _ (nt 2 6 (by decide)), put_ne _ _ (nt 2 5 (by decide)), g 2]
      exact put3_put3 ha m s (orMasked s.1 (m (tab d i 0)) c, orMasked s.2.1 (m (tab d i 1)) c, orMasked s.2.2 (m (tab d i 2)) c)
    rw [List.foldl_cons, e]
    refine select_fold hm index l (fun k hk => hl k (List.mem_cons_of_mem _ hk)) _ ?_
    simp only [selectJacobianStep, readTab_getD hi]
    exact hn _

theorem selectJacobianTo_ok {d : Nat} {m : Mem} (hm : WF 9 m) (index : W) :
    selectJacobianTo (d, 5) (d, 6) (d, 7) (tab d) index m = put3 m (d, 5) (d, 6) (d, 7) (selectJacobian (readTab d m) index) ∧
      Nine (selectJacobian (readTab d m) index) := by
  refine select_fold hm index (List.range' 1 15) (fun i hi => ?_) (zero, zero, zero) ⟨rfl, rfl, rfl⟩
  have := List.mem_range'_1.1 hi
  omega

theorem windowRoundTo_agree {d : Nat} {x y z : Addr} (ho : Outs d x y z) {m : Mem} (sc : Bytes) (a : Mem × W) (b : Jac × W) (i : Nat) (h : Agree d x y z m a b) :
    Agree d x y z m (windowRoundTo d x y z sc a i) (windowRound release (readTab d m) sc b i) := by
  obtain ⟨m', mask⟩ := a
  obtain ⟨s, mask'⟩ := b
  obtain ⟨h1, h2⟩ := h
  cases h2
  dsimp only at h1
  have e : windowRound release (readTab d m) sc (s, mask) i =
      (let s' : Jac := if i ≠ 0 then pointDouble release (pointDouble release (pointDouble release (pointDouble release s))) else s
       let index : W := if i &&& 1 = 1 then (sc.getD (31 - i / 2) 0#8).setWidth 32 &&& 15#32 else (sc.getD (31 - i / 2) 0#8).setWidth 32 >>> 4
       mergeStep (s', mask) (selectJacobian (readTab d m) index) (pointAdd release s' (selectJacobian (readTab d m) index)) index : Jac × W) := by
    unfold windowRound
    by_cases hi : i ≠ 0 <;> by_cases ho : i &&& 1 = 1
    · simp only [if_pos hi, if_pos ho]; rfl
    · simp only [if_pos hi, if_neg ho]; rfl
    · simp only [if_neg hi, if_pos ho]; rfl
    · simp only [if_neg hi, if_neg ho]; rfl
  rw [e]
  simp only [windowRoundTo]
  have hd : Holds d x y z m (if i ≠ 0 then doubleTo (d + 1) x y z x y z (doubleTo (d + 1) x y z x y z (doubleTo (d + 1) x y z x y z (doubleTo (d + 1) x y z x y z m')))
      else m') (if i ≠ 0 then pointDouble release (pointDouble release (pointDouble release (pointDouble release s))) else s : Jac) := by
    split
    · exact (((h1.double ho).double ho).double ho).double ho
    · exact h1
  generalize (if i ≠ 0 then doubleTo (d + 1) x y z x y z (doubleTo (d + 1) x y z x y z (doubleTo (d + 1) x y z x y z (doubleTo (d + 1) x y z x y z m')))
      else m') = m0 at *
  generalize (if i ≠ 0 then pointDouble release (pointDouble release (pointDouble release (pointDouble release s))) else s : Jac) = s' at *
  generalize (if i &&& 1 = 1 then (sc.getD (31 - i / 2) 0#8).setWidth 32 &&& 15#32 else (sc.getD (31 - i / 2) 0#8).setWidth 32 >>> 4 : W) = index
  have et : readTab d m0 = readTab d m := by
    unfold readTab
    congr 1
    funext k
    rw [hd.rest _ (tab_kept d k 0) (tab_low ho.hx _ _).symm (tab_low ho.hy _ _).symm (tab_low ho.hz _ _).symm,
      hd.rest _ (tab_kept d k 1) (tab_low ho.hx _ _).symm (tab_low ho.hy _ _).symm (tab_low ho.hz _ _).symm,
      hd.rest _ (tab_kept d k 2) (tab_low ho.hx _ _).symm (tab_low ho.hy _ _).symm (tab_low ho.hz _ _).symm]
  obtain ⟨hs, hn⟩ := selectJacobianTo_ok (d := d) hd.wf index
  rw [et] at hs hn
  rw [hs]
  generalize selectJacobian (readTab d m) index = p at *
  have w1 := put3_wf hd.wf (d, 5) (d, 6) (d, 7) hn
  have ap : Apart (d, 5) (d, 6) (d, 7) := ⟨by simp, by simp, by simp⟩
  have p5 := put3_x ap m0 p
  have p6 := put3_y ap m0 p
  have p7 := put3_z (d, 5) (d, 6) (d, 7) m0 p
  have r1 : ∀ q : Addr, q ≠ (d, 5) → q ≠ (d, 6) → q ≠ (d, 7) → put3 m0 (d, 5) (d, 6) (d, 7) p q = m0 q := fun q a b c => put3_ne a b c m0 p
  generalize put3 m0 (d, 5) (d, 6) (d, 7) p = m1 at *
  have hm := addTo_ok w1 (d := d + 1) (xout := (d, 8)) (yout := (d, 9)) (zout := (d, 10)) (x1 := x) (y1 := y) (z1 := z) (x2 := (d, 5)) (y2 := (d, 6))
    (z2 := (d, 7)) (by
      have := ho.hx; have := ho.hy; have := ho.hz
      simp only [List.forall_mem_cons, List.not_mem_nil, false_implies, implies_true, and_true]
      omega) (by simp) (by simp) (by simp)
  have w2 := addTo_wf w1 (d + 1) (d, 8) (d, 9) (d, 10) x y z (d, 5) (d, 6) (d, 7)
  have f2 : ∀ q : Addr, q.1 < d + 1 → q ≠ (d, 8) → q ≠ (d, 9) → q ≠ (d, 10) → addTo (d + 1) (d, 8) (d, 9) (d, 10) x y z (d, 5) (d, 6) (d, 7) m1 q = m1 q :=
    fun q a b c e => addTo_frame w1 a b c e
  have lo : ∀ q : Addr, q.1 < d → m1 q = m0 q := fun q hq => r1 q (ne_frame hq _) (ne_frame hq _) (ne_frame hq _)
  rw [p5, p6, p7, lo x ho.hx, lo y ho.hy, lo z ho.hz, hd.acc] at hm
  generalize addTo (d + 1) (d, 8) (d, 9) (d, 10) x y z (d, 5) (d, 6) (d, 7) m1 = m2 at *
  have k : ∀ q : Addr, q.1 < d → m2 q = m0 q := fun q hq => by
    rw [f2 q (Nat.lt_succ_of_lt hq) (ne_frame hq _) (ne_frame hq _) (ne_frame hq _), lo q hq]
  have hh : Holds d x y z m m2 s' := by
    refine ⟨w2, ?_, fun q hq hx hy hz => ?_⟩
    · rw [k x ho.hx, k y ho.hy, k z ho.hz, hd.acc]
    · rw [f2 q hq.lt (hq.ne (by decide)) (hq.ne (by decide)) (hq.ne (by decide)), r1 q (hq.ne (by decide)) (hq.ne (by decide)) (hq.ne (by decide)),
        hd.rest q hq hx hy hz]
  have q5 : m2 (d, 5) = p.1 := by rw [f2 _ (Nat.lt_succ_self d) (by simp) (by simp) (by simp), p5]
  have q6 : m2 (d, 6) = p.2.1 := by rw [f2 _ (Nat.lt_succ_self d) (by simp) (by simp) (by simp), p6]
  have q7 : m2 (d, 7) = p.2.2 := by rw [f2 _ (Nat.lt_succ_self d) (by simp) (by simp) (by simp), p7]
  rw [copy3_eq w2 ho.toApart (ne_frame ho.hx 6).symm (ne_frame ho.hx 7).symm (ne_frame ho.hy 7).symm, hh.acc, q5, q6, q7]
  exact merge_ok ho hh hm (by
    simp only [List.forall_mem_cons, List.not_mem_nil, false_implies, implies_true, and_true]
    exact ⟨⟨(ne_frame ho.hx _).symm, (ne_frame ho.hy _).symm, (ne_frame ho.hz _).symm⟩, ⟨(ne_frame ho.hx _).symm, (ne_frame ho.hy _).symm, (ne_frame ho.hz _).symm⟩,
      (ne_frame ho.hx _).symm, (ne_frame ho.hy _).symm, (ne_frame ho.hz _).symm⟩) p hn index mask

theorem scalarMultTo_ok {d : Nat} {xo yo zo x y : Addr} (ho : Outs d xo yo zo) (hx : x.1 < d) (hy : y.1 < d) {m : Mem} (hm : WF 9 m) (sc : Bytes) :
    ∃ mt : Mem, (∀ q : Addr, q.1 < d → mt q = m q) ∧ Holds d xo yo zo mt (scalarMultTo d xo yo zo x y sc m) (scalarMult release (m x) (m y) sc) := by
  have h0 := tableRounds_ok hx hy [2, 4, 6, 8, 10, 12, 14] (by decide) _ _ (table_start hx hy hm)
  have e : scalarMult release (m x) (m y) sc =
      (List.foldlM (windowRound release (makeTable release (m x) (m y)) sc) ((zero, zero, zero), 0xffffffff#32) (List.range 64) : Id (Jac × W)).1 := rfl
  have e' : (makeTable release (m x) (m y) : Id (List Jac)) = readTab d ([2, 4, 6, 8, 10, 12, 14].foldl (tableRoundTo d x y)
      ((((m.enter d zero).put (tab d 1 0) (m.enter d zero x)).put (tab d 1 1) ((m.enter d zero).put (tab d 1 0) (m.enter d zero x) y)).put (tab d 1 2) one)) :=
    h0.tab.symm
  refine ⟨_, h0.rest, ?_⟩
  rw [e, e']
  exact (foldlM_agree _ _ (windowRoundTo_agree ho sc) (List.range 64) _ _ (start_agree ho h0.wf 0xffffffff#32)).1

/-! ### The methods -/

theorem scalar_eq (c : CurveP256) {m : Mem} (hm : WF 9 m) (x y : Big) (k : Option Nat) : scalar c m x y k = P256.scalar release c x y k := by
  match x, y, k with
  | none, _, _ => rfl
  | some _, none, _ => rfl
  | some _, some _, none => rfl
  | some x, some y, some k =>
    have hw : WF 9 (((m.enter 1 zero).put (1, 3) (fromBigint c x)).put (1, 4) (fromBigint c y)) :=
      ((wf_enter hm 1).put _ (length_fromBigint c _)).put _ (length_fromBigint c _)
    obtain ⟨mt, _, h⟩ := scalarMultTo_ok (d := 2) (xo := (1, 0)) (yo := (1, 1)) (zo := (1, 2)) (x := (1, 3)) (y := (1, 4))
      ⟨⟨by decide, by decide, by decide⟩, by decide, by decide, by decide⟩ (by decide) (by decide) hw (getScalar c k)
    simp only [scalar, P256.scalar, id_bind]
    rw [toAffineFrom_ok c h.wf (by decide) (by decide) (by decide), h.acc]
    rfl

theorem scalarBasePoint_eq (c : CurveP256) {m : Mem} (hm : WF 9 m) (k : Option Nat) : scalarBasePoint c m k = P256.scalarBasePoint release c k := by
  match k with
  | none => rfl
  | some k =>
    have h := scalarBaseMultTo_ok (d := 2) (x := (1, 0)) (y := (1, 1)) (z := (1, 2))
      ⟨⟨by decide, by decide, by decide⟩, by decide, by decide, by decide⟩ (wf_enter hm 1) (getScalar c k)
    simp only [scalarBasePoint, P256.scalarBasePoint, id_bind]
    rw [toAffineFrom_ok c h.wf (by decide) (by decide) (by decide), h.acc]

end Verif.Model.P256Mem
