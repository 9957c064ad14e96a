import Verif.Proof.CTR

/-! Property C03 -/

namespace Verif.Props
open Verif.Model Verif.Spec

/-- C03: construction succeeds iff the initial value fits. -/
theorem C03_counter_new (v : Bytes) (bits : Nat) :
    (v.length ≤ (bits + 7) / 8 → ∃ c, DefaultCounter.new v bits = .ok c) ∧
    (¬ v.length ≤ (bits + 7) / 8 → DefaultCounter.new v bits = .error (.err .invalidParameter)) := by
  constructor <;> intro h
  · exact ⟨_, by unfold DefaultCounter.new; rw [if_neg (by omega)]⟩
  · unfold DefaultCounter.new; rw [if_pos (by omega)]

/-- C03: call number `i` of `next` returns the big-endian encoding of the initial value plus `i`, modulo `256^len`. -/
theorem C03_counter_next (v : Bytes) (bits : Nat) (c : DefaultCounter) (h : DefaultCounter.new v bits = .ok c) (i : Nat) :
    DefaultCounter.ops.value c i = some (toBE ((bits + 7) / 8) (beNat v + i)) := by
  unfold DefaultCounter.new at h
  split at h
  · cases h
  · injection h with h; subst h
    exact DefaultCounter.ops_value { bitsLen := bits, initialVal := v, curVal := none } (by simp only; omega) rfl i

example : ∃ c, DefaultCounter.new [0xff] 12 = .ok c ∧ DefaultCounter.ops.value c 0 = some [0, 0xff] ∧
    DefaultCounter.ops.value c 1 = some [1, 0] := ⟨_, rfl, by decide, by decide⟩

/-- C03: values do not repeat within `256^len` calls. -/
theorem C03_counter_distinct (v : Bytes) (bits : Nat) (c : DefaultCounter) (h : DefaultCounter.new v bits = .ok c)
    (i j : Nat) (hij : i < j) (hj : j - i < 256 ^ ((bits + 7) / 8)) :
    DefaultCounter.ops.value c i ≠ DefaultCounter.ops.value c j := by
  rw [C03_counter_next v bits c h, C03_counter_next v bits c h]
  intro he
  injection he with he
  rw [toBE_inj] at he
  have h1 := Nat.sub_mod_eq_zero_of_mod_eq he.symm
  rw [show beNat v + j - (beNat v + i) = j - i by omega, Nat.mod_eq_of_lt hj] at h1
  omega

/-- C03: `reset`, and `clone`, after any number of calls restart at the initial value. -/
theorem C03_counter_reset (v : Bytes) (bits : Nat) (c : DefaultCounter) (h : DefaultCounter.new v bits = .ok c) (n i : Nat) :
    DefaultCounter.ops.value (DefaultCounter.reset (DefaultCounter.ops.after c n)) i = DefaultCounter.ops.value c i ∧
    DefaultCounter.ops.value (DefaultCounter.clone (DefaultCounter.ops.after c n)) i = DefaultCounter.ops.value c i := by
  have hr : DefaultCounter.reset (DefaultCounter.ops.after c n) = c := by
    unfold DefaultCounter.new at h
    split at h
    · cases h
    · rename_i hlen
      injection h with h; subst h
      cases n with
      | zero => rfl
      | succ n =>
        rw [DefaultCounter.ops_after _ (by simp only; omega) rfl]; rfl
  exact ⟨by rw [hr], by rw [show DefaultCounter.clone _ = DefaultCounter.reset _ from rfl, hr]⟩

end Verif.Props
