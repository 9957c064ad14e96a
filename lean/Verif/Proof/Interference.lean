import Verif.Model.CurveMem

/-! Straight-line programs on names, run with names that may share an address -/

namespace Verif.Model.CurveMem

theorem put_same (m : Mem) (p : Addr) (v : List (BitVec 32)) : m.put p v p = v := by simp [Mem.put]

theorem put_ne (m : Mem) {p q : Addr} (v : List (BitVec 32)) (h : q ≠ p) : m.put p v q = m q := by simp [Mem.put, h]

theorem put_put (m : Mem) (p : Addr) (v w : List (BitVec 32)) : (m.put p v).put p w = m.put p w := by
  funext q
  by_cases h : q = p <;> simp [Mem.put, h]

theorem put_self (m : Mem) (p : Addr) : m.put p (m p) = m := by
  funext q
  by_cases h : q = p <;> simp [Mem.put, h]

theorem put_setLimb (m : Mem) (p : Addr) (v : List (BitVec 32)) (i : Nat) (w : BitVec 32) : (m.put p v).setLimb p i w = m.put p (v.set i w) := by
  rw [Mem.setLimb, put_same, put_put]

theorem enter_ne (m : Mem) (d : Nat) (z : List (BitVec 32)) {q : Addr} (h : q.1 ≠ d) : m.enter d z q = m q := by simp [Mem.enter, h]

theorem enter_same (m : Mem) (d : Nat) (z : List (BitVec 32)) (n : Nat) : m.enter d z (d, n) = z := by simp [Mem.enter]

/-- All arrays have `n` limbs. -/
def WF (n : Nat) (m : Mem) : Prop := ∀ p, (m p).length = n

theorem WF.put {n : Nat} {m : Mem} (h : WF n m) (p : Addr) {v : List (BitVec 32)} (hv : v.length = n) : WF n (m.put p v) := by
  intro q
  by_cases hq : q = p
  · rw [hq, put_same, hv]
  · rw [put_ne _ _ hq, h q]

theorem WF.enter {n : Nat} {m : Mem} (h : WF n m) (d : Nat) {v : List (BitVec 32)} (hv : v.length = n) : WF n (m.enter d v) := by
  intro q
  by_cases hq : q.1 = d
  · simp [Mem.enter, hq, hv]
  · rw [enter_ne _ _ _ hq, h q]

theorem WF.setLimb {n : Nat} {m : Mem} (h : WF n m) (p : Addr) (i : Nat) (v : BitVec 32) : WF n (m.setLimb p i v) :=
  h.put p (by rw [List.length_set, h p])

/-! ### The loops -/

/-- The first `k` limbs are new, the others old. -/
def partly {n : Nat} (k : Nat) (l : List (BitVec 32)) (g : Fin n → BitVec 32) : List (BitVec 32) :=
  List.ofFn fun i : Fin n => if i.1 < k then g i else l.getD i.1 0

theorem partly_zero {n : Nat} {l : List (BitVec 32)} (h : l.length = n) (g : Fin n → BitVec 32) : partly 0 l g = l := by
  apply List.ext_getElem
  · simp [partly, h]
  · intro i h1 h2
    simp [partly, List.getElem?_eq_getElem h2]

theorem partly_all {n : Nat} (l : List (BitVec 32)) (g : Fin n → BitVec 32) : partly n l g = List.ofFn g := by
  unfold partly
  congr 1
  funext i
  simp

theorem partly_succ {n k : Nat} (hk : k < n) (l : List (BitVec 32)) (g : Fin n → BitVec 32) : (partly k l g).set k (g ⟨k, hk⟩) = partly (k + 1) l g := by
  apply List.ext_getElem
  · simp [partly]
  · intro i h1 h2
    rw [List.getElem_set]
    simp only [partly, List.getElem_ofFn]
    by_cases h : k = i
    · subst h
      simp
    · have : (i < k) ↔ (i < k + 1) := by omega
      simp [h, this]

theorem partly_getD {n k i : Nat} (hi : i < n) (hk : k ≤ i) (l : List (BitVec 32)) (g : Fin n → BitVec 32) : (partly k l g).getD i 0 = l.getD i 0 := by
  rw [List.getD_eq_getElem?_getD, List.getElem?_eq_getElem (by simpa [partly] using hi)]
  have : ¬ i < k := by omega
  simp [partly, this]

theorem range_foldl_ind {α : Type} (f : α → Nat → α) (P : Nat → α → Prop) (a : α) (h0 : P 0 a) (n : Nat)
    (hs : ∀ k b, k < n → P k b → P (k + 1) (f b k)) : P n ((List.range n).foldl f a) := by
  induction n with
  | zero => exact h0
  | succ n ih =>
    rw [List.range_succ, List.foldl_append]
    exact hs n _ (by omega) (ih fun k b hk hb => hs k b (by omega) hb)

/-- The limbs of an array that a loop over `out` sees at the moment it comes to limb `i`: the old ones, whether the array is `out` or not. -/
theorem limb_partly {n k : Nat} (hk : k < n) (m : Mem) (out a : Addr) (g : Fin n → BitVec 32) :
    (m.put out (partly k (m out) g)).limb a k = (m a).getD k 0 := by
  unfold Mem.limb
  by_cases h : a = out
  · rw [h, put_same, partly_getD hk (Nat.le_refl k)]
  · rw [put_ne _ _ h]

theorem loop2_eq {n : Nat} {m : Mem} (hm : WF n m) (f : Nat → BitVec 32 → BitVec 32 → BitVec 32) (out a b : Addr) :
    loop2 n f out a b m = m.put out (List.ofFn fun i : Fin n => f i ((m a).getD i 0) ((m b).getD i 0)) := by
  have := range_foldl_ind (fun m i => m.setLimb out i (f i (m.limb a i) (m.limb b i)))
    (fun k m' => m' = m.put out (partly k (m out) fun i : Fin n => f i ((m a).getD i 0) ((m b).getD i 0))) m
    (by rw [partly_zero (hm out), put_self]) n ?_
  · rw [partly_all] at this
    exact this
  · rintro k _ hk rfl
    show Mem.setLimb _ out k (f k _ _) = _
    rw [limb_partly hk, limb_partly hk, put_setLimb, ← partly_succ hk]

theorem loop1_eq {n : Nat} {m : Mem} (hm : WF n m) (f : BitVec 32 → BitVec 32 → BitVec 32) (out a : Addr) :
    loop1 n f out a m = m.put out (List.ofFn fun i : Fin n => f ((m out).getD i 0) ((m a).getD i 0)) :=
  loop2_eq hm (fun _ => f) out out a

theorem ofFn_zipWith {n : Nat} (f : BitVec 32 → BitVec 32 → BitVec 32) {a b : List (BitVec 32)} (ha : a.length = n) (hb : b.length = n) :
    (List.ofFn fun i : Fin n => f (a.getD i 0) (b.getD i 0)) = List.zipWith f a b := by
  apply List.ext_getElem
  · simp [ha, hb]
  · intro i h1 h2
    have hi : i < n := by simpa using h1
    simp [List.getElem?_eq_getElem (ha ▸ hi : i < a.length), List.getElem?_eq_getElem (hb ▸ hi : i < b.length)]

theorem ofFn_map {n : Nat} (f : BitVec 32 → BitVec 32) {a : List (BitVec 32)} (ha : a.length = n) :
    (List.ofFn fun i : Fin n => f (a.getD i 0)) = a.map f := by
  apply List.ext_getElem
  · simp [ha]
  · intro i h1 h2
    have hi : i < n := by simpa using h1
    simp [List.getElem?_eq_getElem (ha ▸ hi : i < a.length)]

/-! ### Programs -/

/-- What an operation writes, which names it reads, and the value it writes. -/
structure Sem (Op : Type) where
  dst : Op → Nat
  src : Op → List Nat
  val : Op → (Nat → List (BitVec 32)) → List (BitVec 32)
  congr : ∀ op r s, (∀ n ∈ src op, r n = s n) → val op r = val op s

variable {Op : Type} (S : Sem Op)

/-- The registers after a write to the name `k`. -/
def upd (r : Nat → List (BitVec 32)) (k : Nat) (v : List (BitVec 32)) : Nat → List (BitVec 32) := fun n => if n = k then v else r n

/-- The program on separate registers. -/
def Sem.regs (ops : List Op) (r : Nat → List (BitVec 32)) : Nat → List (BitVec 32) := ops.foldl (fun r op => upd r (S.dst op) (S.val op r)) r

/-- The program on a memory. -/
def Sem.mem (ρ : Nat → Addr) (ops : List Op) (m : Mem) : Mem :=
  ops.foldl (fun m op => m.put (ρ (S.dst op)) (S.val op fun n => m (ρ n))) m

/-- The names whose value at the start matters for the names `out` at the end. -/
def Sem.live : List Op → List Nat → List Nat
  | [], out => out
  | op :: ops, out => S.src op ++ (Sem.live ops out).filter (· ≠ S.dst op)

/-- The pairs of names that must not share an address: a name that is written and one that is needed afterwards. -/
def Sem.clash : List Op → List Nat → List (Nat × Nat)
  | [], _ => []
  | op :: ops, out => ((S.live ops out).filter (· ≠ S.dst op)).map (fun n => (S.dst op, n)) ++ Sem.clash ops out

theorem Sem.sim (ρ : Nat → Addr) : ∀ (ops : List Op) (out : List Nat) (m : Mem) (r : Nat → List (BitVec 32)),
    (∀ p ∈ S.clash ops out, ρ p.1 ≠ ρ p.2) → (∀ n ∈ S.live ops out, m (ρ n) = r n) → ∀ n ∈ out, S.mem ρ ops m (ρ n) = S.regs ops r n
  | [], _, _, _, _, h, n, hn => h n hn
  | op :: ops, out, m, r, hc, h, n, hn => by
    refine Sem.sim ρ ops out _ _ (fun p hp => hc p (List.mem_append_right _ hp)) (fun k hk => ?_) n hn
    have hv : (S.val op fun n => m (ρ n)) = S.val op r := S.congr op _ _ fun n hn => h n (List.mem_append_left _ hn)
    show m.put (ρ (S.dst op)) (S.val op fun n => m (ρ n)) (ρ k) = upd r (S.dst op) (S.val op r) k
    by_cases hd : k = S.dst op
    · rw [hd, put_same, hv]
      simp [upd]
    · have hk' : k ∈ (S.live ops out).filter (· ≠ S.dst op) := by simp [hk, hd]
      have hne : ρ k ≠ ρ (S.dst op) := fun he => hc (S.dst op, k) (List.mem_append_left _ (List.mem_map_of_mem hk')) he.symm
      rw [put_ne _ _ hne]
      simp only [upd, hd, if_false]
      exact h k (List.mem_append_right _ hk')

theorem Sem.frame (ρ : Nat → Addr) (p : Addr) : ∀ (ops : List Op) (m : Mem), (∀ op ∈ ops, ρ (S.dst op) ≠ p) → S.mem ρ ops m p = m p
  | [], _, _ => rfl
  | op :: ops, m, h => by
    rw [Sem.mem, List.foldl_cons]
    exact (Sem.frame ρ p ops _ fun o ho => h o (List.mem_cons_of_mem _ ho)).trans (put_ne _ _ (h op List.mem_cons_self).symm)

theorem Sem.regs_append (a b : List Op) (r : Nat → List (BitVec 32)) : S.regs (a ++ b) r = S.regs b (S.regs a r) := List.foldl_append ..

/-! ### Names and addresses -/

theorem bind_local {ps : List Addr} {d n : Nat} (h : ps.length ≤ n) : bind ps d n = (d, n) := by
  unfold bind
  rw [List.getD_eq_getElem?_getD, List.getElem?_eq_none h]
  rfl

theorem bind_param {ps : List Addr} {d n : Nat} (h : n < ps.length) (hp : ∀ p ∈ ps, p.1 < d) : (bind ps d n).1 < d := by
  unfold bind
  rw [List.getD_eq_getElem?_getD, List.getElem?_eq_getElem h]
  exact hp _ (List.getElem_mem h)

theorem bind_sep {ps : List Addr} {d a b : Nat} (hp : ∀ p ∈ ps, p.1 < d) (hab : a ≠ b) (h : ps.length ≤ a ∨ ps.length ≤ b) :
    bind ps d a ≠ bind ps d b := by
  intro he
  by_cases ha : ps.length ≤ a
  · rw [bind_local ha] at he
    by_cases hb : ps.length ≤ b
    · rw [bind_local hb] at he
      exact hab (congrArg Prod.snd he)
    · have := bind_param (Nat.lt_of_not_le hb) hp
      rw [← he] at this
      exact Nat.lt_irrefl _ this
  · have hb := h.resolve_left ha
    rw [bind_local hb] at he
    have := bind_param (Nat.lt_of_not_le ha) hp
    rw [he] at this
    exact Nat.lt_irrefl _ this

end Verif.Model.CurveMem
