import Verif.Proof.KeccakPerm
import Verif.Props.SHA3
import Mathlib.Data.Fintype.Vector
import Mathlib.Data.Fintype.EquivFin

/-!
C79: what `Keccak::permutation` computes is a permutation, for every width and every number of rounds.

`C37_keccak_p_partial` identifies it with Keccak-p[b, nr] for up to `12 + 2l` rounds. With more rounds the round constants of the code are not those of
FIPS 202 (`C37_negative_round_refuted`); the theorems here hold for all round counts, so the deviation changes which permutation is computed but not
that it is one.
-/

namespace Verif.Props
open Verif.Model
open Verif.Spec.Keccak (bitsOf bytesOf)

/-- The state bits an input determines: the first `25 * 2^l` bits of the bytes read from the back. -/
def stateBits (l : Nat) (x : Bytes) : List Bool := ((bitsOf x).reverse).take (25 * 2 ^ l)

theorem bytesOf_inj_of_length {s t : List Bool} (h : s.length = t.length) (e : bytesOf s = bytesOf t) : s = t := by
  have h1 := SHA3.take_bits_bytes s s.length (le_refl _)
  have h2 := SHA3.take_bits_bytes t t.length (le_refl _)
  rw [List.take_length] at h1 h2
  rw [← h1, ← h2, e, h]

theorem runPermutation_outs {l nr} : ∀ (inputs : List Bytes) (k : Keccak.State), Keccak.Ok k l nr → (∀ x ∈ inputs, (25 * 2 ^ l + 7) / 8 ≤ x.length) →
    ∃ ks : List Keccak.State, ks.length = inputs.length ∧ (∀ k1 ∈ ks, Keccak.Ok k1 l nr) ∧
      ks.map (fun k1 => Keccak.finish k1.input (2 ^ l)) = inputs.map (stateBits l) ∧
      runPermutation k inputs = .ok (ks.map fun k1 => bytesOf (Keccak.finish (Keccak.permutationInner k1).input (2 ^ l)))
  | [], _, _, _ => ⟨[], rfl, by simp, rfl, rfl⟩
  | x :: rest, k, hk, h => by
    obtain ⟨k', k1, hk', hk1, e1, e2⟩ := Keccak.permutation_out hk x (h x (by simp))
    obtain ⟨ks, h1, h2, h3, h4⟩ := runPermutation_outs rest k' hk' (fun y hy => h y (by simp [hy]))
    refine ⟨k1 :: ks, by simp [h1], ?_, by simp [h3, e1, stateBits], ?_⟩
    · intro q hq
      rcases List.mem_cons.1 hq with rfl | hq
      · exact hk1
      · exact h2 q hq
    · simp only [runPermutation, bind, Except.bind, e2, h4, List.map_cons]

/-- C79: for every width and every number of rounds, and for every sequence of calls of `permutation` on one object with long enough inputs: all calls
succeed, every output has the length of the state, and two calls return the same output exactly if their inputs give the same state bits. -/
theorem C79_injective (l nr : Nat) (hl : l ≤ 6) (inputs : List Bytes) (hi : ∀ x ∈ inputs, (25 * 2 ^ l + 7) / 8 ≤ x.length) :
    ∃ k outs, Keccak.new (25 * 2 ^ l) nr = .ok k ∧ runPermutation k inputs = .ok outs ∧ outs.length = inputs.length ∧
      (∀ o ∈ outs, o.length = (25 * 2 ^ l + 7) / 8) ∧
      ∀ (i j : Nat) (x y a b : Bytes), inputs[i]? = some x → inputs[j]? = some y → outs[i]? = some a → outs[j]? = some b →
        (a = b ↔ ((bitsOf x).reverse).take (25 * 2 ^ l) = ((bitsOf y).reverse).take (25 * 2 ^ l)) := by
  have hw : 0 < 2 ^ l := Nat.two_pow_pos l
  obtain ⟨k, e, hk⟩ := SHA3.keccak_new_ok (b := 25 * 2 ^ l) (nr := nr) hl rfl
  obtain ⟨ks, h1, h2, h3, h4⟩ := runPermutation_outs inputs k hk hi
  refine ⟨k, _, e, h4, by simp [h1], ?_, ?_⟩
  · intro o ho
    obtain ⟨k1, _, rfl⟩ := List.mem_map.1 ho
    rw [SHA3.bytesOf_length', Keccak.finish_length _ _ hw]
  · intro i j x y a b hx hy ha hb
    have st : ∀ (i : Nat) (x a : Bytes), inputs[i]? = some x →
        (ks.map fun k1 => bytesOf (Keccak.finish (Keccak.permutationInner k1).input (2 ^ l)))[i]? = some a →
        ∃ k1, Keccak.Ok k1 l nr ∧ a = bytesOf (Keccak.finish (Keccak.permutationInner k1).input (2 ^ l)) ∧
          Keccak.finish k1.input (2 ^ l) = ((bitsOf x).reverse).take (25 * 2 ^ l) := by
      intro i x a hx ha
      rw [List.getElem?_map, Option.map_eq_some_iff] at ha
      obtain ⟨k1, hk1, rfl⟩ := ha
      refine ⟨k1, h2 k1 (List.mem_of_getElem? hk1), rfl, ?_⟩
      have := congrArg (fun q => q[i]?) h3
      simp only [List.getElem?_map, hk1, hx, Option.map_some] at this
      exact Option.some.inj this
    obtain ⟨k1, o1, rfl, q1⟩ := st i x a hx ha
    obtain ⟨k2, o2, rfl, q2⟩ := st j y b hy hb
    rw [← q1, ← q2, ← Keccak.permutationInner_agree o1 o2]
    exact ⟨fun h => bytesOf_inj_of_length (by rw [Keccak.finish_length _ _ hw, Keccak.finish_length _ _ hw]) h, fun h => by rw [h]⟩

/-- An input with the given state bits. -/
def inputOf (t : List Bool) : Bytes := bytesOf (List.replicate (8 * ((t.length + 7) / 8) - t.length) false ++ t.reverse)

theorem inputOf_length (t : List Bool) : (inputOf t).length = (t.length + 7) / 8 := by
  unfold inputOf
  rw [SHA3.bytesOf_length']
  simp only [List.length_append, List.length_replicate, List.length_reverse]
  omega

theorem inputOf_bits (l : Nat) (t : List Bool) (h : t.length = 25 * 2 ^ l) : stateBits l (inputOf t) = t := by
  unfold stateBits inputOf
  generalize hs : List.replicate (8 * ((t.length + 7) / 8) - t.length) false ++ t.reverse = s
  have hsl : s.length = 8 * ((t.length + 7) / 8) := by rw [← hs]; simp; omega
  have e := SHA3.take_bits_bytes s s.length (le_refl _)
  rw [List.take_length, List.take_of_length_le (by rw [Sponge.bitsOf_length, SHA3.bytesOf_length']; omega)] at e
  rw [e, ← hs, List.reverse_append, List.reverse_reverse, List.take_append_of_le_length (by omega), List.take_of_length_le (by omega)]

/-- C79: every state is reached: for every width, every number of rounds and every string of `25 * 2^l` bits there is an input of the length of the state
for which `permutation` returns these bits. -/
theorem C79_surjective (l nr : Nat) (hl : l ≤ 6) (t : List Bool) (ht : t.length = 25 * 2 ^ l) :
    ∃ k x, Keccak.new (25 * 2 ^ l) nr = .ok k ∧ x.length = (25 * 2 ^ l + 7) / 8 ∧ runPermutation k [x] = .ok [bytesOf t] := by
  have hw : 0 < 2 ^ l := Nat.two_pow_pos l
  obtain ⟨k, e, hk⟩ := SHA3.keccak_new_ok (b := 25 * 2 ^ l) (nr := nr) hl rfl
  have hlen : ∀ t : List Bool, t.length = 25 * 2 ^ l → (25 * 2 ^ l + 7) / 8 ≤ (inputOf t).length := fun t h => by rw [inputOf_length, h]
  have step : ∀ t : List.Vector Bool (25 * 2 ^ l), ∃ k1 : Keccak.State, Keccak.Ok k1 l nr ∧ Keccak.finish k1.input (2 ^ l) = t.1 ∧
      ∃ k', Keccak.permutation k (inputOf t.1) = .ok (k', bytesOf (Keccak.finish (Keccak.permutationInner k1).input (2 ^ l))) := by
    intro t
    obtain ⟨k', k1, _, hk1, e1, e2⟩ := Keccak.permutation_out hk (inputOf t.1) (hlen t.1 t.2)
    exact ⟨k1, hk1, e1.trans (inputOf_bits l t.1 t.2), k', e2⟩
  choose kt okt fint kt' pert using step
  let F : List.Vector Bool (25 * 2 ^ l) → List.Vector Bool (25 * 2 ^ l) := fun t =>
    ⟨Keccak.finish (Keccak.permutationInner (kt t)).input (2 ^ l), Keccak.finish_length _ _ hw⟩
  have inj : Function.Injective F := by
    intro a b h
    have := (Keccak.permutationInner_agree (okt a) (okt b)).1 (congrArg Subtype.val h)
    rw [fint a, fint b] at this
    exact Subtype.ext this
  obtain ⟨a, ha⟩ := Finite.surjective_of_injective inj ⟨t, ht⟩
  refine ⟨k, inputOf a.1, e, by rw [inputOf_length, a.2], ?_⟩
  simp only [runPermutation, bind, Except.bind, pert a]
  rw [show Keccak.finish (Keccak.permutationInner (kt a)).input (2 ^ l) = t from congrArg Subtype.val ha]

/-- C79: for the widths that are whole bytes (200, 400, 800, 1600) `permutation` is a bijection on the byte strings of that length, for every number of
rounds. -/
theorem C79_bijective (l nr : Nat) (h3 : 3 ≤ l) (hl : l ≤ 6) :
    ∃ k, Keccak.new (25 * 2 ^ l) nr = .ok k ∧ ∃ f : Bytes → Bytes, (∀ x, x.length = 25 * 2 ^ l / 8 → runPermutation k [x] = .ok [f x]) ∧
      (∀ x, x.length = 25 * 2 ^ l / 8 → (f x).length = 25 * 2 ^ l / 8) ∧
      (∀ x y, x.length = 25 * 2 ^ l / 8 → y.length = 25 * 2 ^ l / 8 → f x = f y → x = y) ∧
      (∀ y, y.length = 25 * 2 ^ l / 8 → ∃ x, x.length = 25 * 2 ^ l / 8 ∧ f x = y) := by
  obtain ⟨j, rfl⟩ : ∃ j, l = j + 3 := ⟨l - 3, by omega⟩
  have hb : 25 * 2 ^ (j + 3) = 8 * (25 * 2 ^ j) := by rw [pow_add]; omega
  have hn : (25 * 2 ^ (j + 3) + 7) / 8 = 25 * 2 ^ (j + 3) / 8 := by omega
  obtain ⟨k, e, hk⟩ := SHA3.keccak_new_ok (b := 25 * 2 ^ (j + 3)) (nr := nr) hl rfl
  have ex : ∀ x : Bytes, ∃ y, x.length = 25 * 2 ^ (j + 3) / 8 → runPermutation k [x] = .ok [y] := by
    intro x
    by_cases h : x.length = 25 * 2 ^ (j + 3) / 8
    · obtain ⟨ks, h1, _, _, h4⟩ := runPermutation_outs [x] k hk (by simp only [List.mem_singleton, forall_eq]; omega)
      match ks, h1, h4 with
      | [k1], _, h4 => exact ⟨_, fun _ => h4⟩
    · exact ⟨[], fun h' => absurd h' h⟩
  choose f hf using ex
  have whole : ∀ x : Bytes, x.length = 25 * 2 ^ (j + 3) / 8 → ((bitsOf x).reverse).take (25 * 2 ^ (j + 3)) = (bitsOf x).reverse := by
    intro x hx
    exact List.take_of_length_le (by rw [List.length_reverse, Sponge.bitsOf_length]; omega)
  have two : ∀ x y, x.length = 25 * 2 ^ (j + 3) / 8 → y.length = 25 * 2 ^ (j + 3) / 8 → (f x).length = 25 * 2 ^ (j + 3) / 8 ∧ (f x = f y → x = y) := by
    intro x y hx hy
    have single : ∀ x, x.length = 25 * 2 ^ (j + 3) / 8 → ∃ k', Keccak.permutation k x = .ok (k', f x) := by
      intro x hx
      have := hf x hx
      rcases hp : Keccak.permutation k x with q | ⟨k', o⟩
      · simp [runPermutation, bind, Except.bind, hp] at this
      · simp [runPermutation, bind, Except.bind, hp] at this
        exact ⟨k', by rw [this]⟩
    obtain ⟨kx, kx1, _, hx1, ex1, ex2⟩ := Keccak.permutation_out hk x (by omega)
    obtain ⟨ky, ky1, _, hy1, ey1, ey2⟩ := Keccak.permutation_out hk y (by omega)
    obtain ⟨kx', ex3⟩ := single x hx
    obtain ⟨ky', ey3⟩ := single y hy
    have fx : f x = bytesOf (Keccak.finish (Keccak.permutationInner kx1).input (2 ^ (j + 3))) := by
      have := ex2.symm.trans ex3; injection this with this; exact (congrArg Prod.snd this).symm
    have fy : f y = bytesOf (Keccak.finish (Keccak.permutationInner ky1).input (2 ^ (j + 3))) := by
      have := ey2.symm.trans ey3; injection this with this; exact (congrArg Prod.snd this).symm
    have hw : 0 < 2 ^ (j + 3) := Nat.two_pow_pos _
    refine ⟨by rw [fx, SHA3.bytesOf_length', Keccak.finish_length _ _ hw]; exact hn, fun h => ?_⟩
    rw [fx, fy] at h
    have h := (Keccak.permutationInner_agree hx1 hy1).1
      (bytesOf_inj_of_length (by rw [Keccak.finish_length _ _ hw, Keccak.finish_length _ _ hw]) h)
    rw [ex1, ey1, whole x hx, whole y hy] at h
    have h := List.reverse_injective h
    rw [← SHA3.bytesOf_bitsOf x, h, SHA3.bytesOf_bitsOf]
  refine ⟨k, e, f, hf, fun x hx => (two x x hx hx).1, fun x y hx hy => (two x y hx hy).2, ?_⟩
  intro y hy
  obtain ⟨k', x, e', hx, hr⟩ := C79_surjective (j + 3) nr hl (bitsOf y) (by rw [Sponge.bitsOf_length, hy]; omega)
  rw [e] at e'
  injection e' with e'
  subst e'
  refine ⟨x, by omega, ?_⟩
  have := (hf x (by omega)).symm.trans hr
  injection this with this
  injection this with this
  rw [this, SHA3.bytesOf_bitsOf]

/-- C79: an input that does not fill the state is refused, whatever calls came before; with `C79_injective` this says exactly which inputs are accepted. -/
theorem C79_short (l nr : Nat) (hl : l ≤ 6) (inputs : List Bytes) (hi : ∀ x ∈ inputs, (25 * 2 ^ l + 7) / 8 ≤ x.length) (x : Bytes)
    (hx : 8 * x.length < 25 * 2 ^ l) (rest : List Bytes) :
    ∃ k, Keccak.new (25 * 2 ^ l) nr = .ok k ∧ runPermutation k (inputs ++ x :: rest) = .error (.err .invalidParameter) := by
  obtain ⟨k, e, hk⟩ := SHA3.keccak_new_ok (b := 25 * 2 ^ l) (nr := nr) hl rfl
  refine ⟨k, e, ?_⟩
  clear e
  induction inputs generalizing k with
  | nil =>
    have : Keccak.permutation k x = .error (.err .invalidParameter) := by
      unfold Keccak.permutation
      rw [if_pos (by rw [hk.b_eq]; omega)]
    simp only [List.nil_append, runPermutation, bind, Except.bind, this]
  | cons y ys ih =>
    obtain ⟨k', _, hk', _, _, e2⟩ := Keccak.permutation_out hk y (hi y (by simp))
    simp only [List.cons_append, runPermutation, bind, Except.bind, e2, ih (fun z hz => hi z (by simp [hz])) k' hk']

/-- Non-vacuity: three bytes do not fill a state of 25 bits, four do. -/
example : 8 * [1#8, 2#8, 3#8].length < 25 * 2 ^ 0 ∧ (25 * 2 ^ 0 + 7) / 8 ≤ [1#8, 2#8, 3#8, 4#8].length := by decide

/-- Non-vacuity: two inputs of a 25-bit state that differ only in the bits that do not count give the same output, a third one gives another. -/
example : (match Keccak.new 25 15 with
    | .ok k => (match runPermutation k [[1#8, 2#8, 3#8, 4#8], [0x7f#8, 2#8, 3#8, 4#8], [1#8, 2#8, 3#8, 5#8]] with
      | .ok [a, b, c] => a == b && a != c && a.length == 4
      | _ => false)
    | _ => false) = true := by decide +kernel

end Verif.Props
