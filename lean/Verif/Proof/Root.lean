import Verif.Proof.Manger
import Verif.Spec.Root

/-! The factors the attack of Manger asks about, computed from the number it looks for. -/

namespace Verif.Spec.Manger

variable (k n x : Nat)

def narrowF : Nat → Nat → Nat → List Nat
  | 0, _, _ => []
  | t + 1, lo, hi =>
    if hi ≤ lo then []
    else
      let B := 256 ^ (k - 1)
      let i := 2 * B / (hi - lo) * lo / n
      let f := ceil (i * n) lo
      f :: if decide (256 ^ (k - 1) ≤ f * x % n) then narrowF t (ceil (i * n + B) f) hi else narrowF t lo ((i * n + B - 1) / f)

def landF (rounds g : Nat) : Nat → Nat → List Nat
  | 0, _ => []
  | t + 1, f =>
    f :: if decide (256 ^ (k - 1) ≤ f * x % n) then landF rounds g t (f + g) else narrowF k n x rounds (ceil n f) ((n + 256 ^ (k - 1) - 1) / f)

def growF (rounds : Nat) : Nat → Nat → List Nat
  | 0, _ => []
  | t + 1, g =>
    2 * g :: if decide (256 ^ (k - 1) ≤ 2 * g * x % n) then landF k n x rounds g 258 ((n + 256 ^ (k - 1)) / 256 ^ (k - 1) * g) else growF rounds t (2 * g)

def attackF (perBit : Nat) : List Nat := growF k n x (perBit * (8 * (k - 1))) (8 * (k - 1)) 1

variable {k n x} {e c : Nat} {o : Bytes → Bool}

theorem narrow_asked (t : Nat) : ∀ lo hi, (∀ f ∈ narrowF k n x t lo hi, o (question k n e c f) = decide (256 ^ (k - 1) ≤ f * x % n)) →
    (narrow k n e c t lo hi).asked o = (narrowF k n x t lo hi).map (question k n e c) := by
  induction t with
  | zero => intros; rfl
  | succ t ih =>
    intro lo hi h
    rw [narrow, narrowF] at *
    split
    · rfl
    · rename_i hw
      simp only [if_neg hw] at h
      simp only [Ask.asked]
      generalize ceil (2 * 256 ^ (k - 1) / (hi - lo) * lo / n * n) lo = f at *
      rw [h f (List.mem_cons_self ..), List.map_cons]
      have h' := fun f hf => h f (List.mem_cons_of_mem _ hf)
      clear h
      revert h'
      cases decide (256 ^ (k - 1) ≤ f * x % n)
      · exact fun h' => congrArg _ (ih _ _ h')
      · exact fun h' => congrArg _ (ih _ _ h')

theorem land_asked (r g t : Nat) : ∀ f, (∀ f' ∈ landF k n x r g t f, o (question k n e c f') = decide (256 ^ (k - 1) ≤ f' * x % n)) →
    (land k n e c r g t f).asked o = (landF k n x r g t f).map (question k n e c) := by
  induction t with
  | zero => intros; rfl
  | succ t ih =>
    intro f h
    rw [land, landF] at *
    simp only [Ask.asked]
    rw [h f (List.mem_cons_self ..), List.map_cons]
    have h' := fun f hf => h f (List.mem_cons_of_mem _ hf)
    clear h
    revert h'
    cases decide (256 ^ (k - 1) ≤ f * x % n)
    · exact fun h' => congrArg _ (narrow_asked _ _ _ h')
    · exact fun h' => congrArg _ (ih _ h')

theorem grow_asked (r t : Nat) : ∀ g, (∀ f ∈ growF k n x r t g, o (question k n e c f) = decide (256 ^ (k - 1) ≤ f * x % n)) →
    (grow k n e c r t g).asked o = (growF k n x r t g).map (question k n e c) := by
  induction t with
  | zero => intros; rfl
  | succ t ih =>
    intro g h
    rw [grow, growF] at *
    simp only [Ask.asked]
    rw [h _ (List.mem_cons_self ..), List.map_cons]
    have h' := fun f hf => h f (List.mem_cons_of_mem _ hf)
    clear h
    revert h'
    cases decide (256 ^ (k - 1) ≤ 2 * g * x % n)
    · exact fun h' => congrArg _ (ih _ h')
    · exact fun h' => congrArg _ (land_asked _ _ _ _ h')

theorem attack_asked {N : Nat} (h : ∀ f ∈ attackF k n x N, o (question k n e c f) = decide (256 ^ (k - 1) ≤ f * x % n)) :
    (attack k n e c N).asked o = (attackF k n x N).map (question k n e c) := grow_asked _ _ _ h

end Verif.Spec.Manger
