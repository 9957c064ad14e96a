import Verif.Spec.Manger

/-!
The attack of D. Bleichenbacher (CRYPTO 1998) on RSAES-PKCS1-v1_5.

Not code: a program of someone who knows the public key `(n, e)` of `k` bytes and a ciphertext `c` and may ask the receiver whether other ciphertexts are
accepted. It keeps a list of intervals that the unknown number lies in. The names and the numbers of the steps are those of section 3.1 of the paper; step 1
is not needed for a ciphertext of an encoded message.
-/

namespace Verif.Spec.Bleichenbacher
open Manger (ceil question)

/-- Step 3: what is left of the interval from `a` to `b` when `s` times the number is, modulo `n`, at least `2 B` and less than `3 B`. -/
def cut (n B s a b : Nat) : List (Nat × Nat) :=
  let r0 := (a * s - (3 * B - 1)) / n
  let r1 := b * s / n
  (List.range' r0 (r1 + 1 - r0)).filterMap fun r =>
    let lo := max a (ceil (2 * B + r * n) s)
    let hi := min b ((3 * B - 1 + r * n) / s)
    if lo ≤ hi then some (lo, hi) else none

/-- Step 3 for all intervals. -/
def cutAll (n B s : Nat) (M : List (Nat × Nat)) : List (Nat × Nat) := M.flatMap fun ab => cut n B s ab.1 ab.2

/-- The next factor to try after `s`, and the number of turns for step 2.c (0 in step 2.b). -/
def plan (n B s : Nat) : List (Nat × Nat) → Nat × Nat
  | [(_, b)] => let r := ceil (2 * (b * s - 2 * B)) n; (ceil (2 * B + r * n) b, r)
  | _ => (s + 1, 0)

/-- The next factor after a refusal. -/
def skip (n B s r : Nat) : List (Nat × Nat) → Nat × Nat
  | [(a, b)] =>
    if r = 0 then (s + 1, 0)
    else if s + 1 ≤ (3 * B - 1 + r * n) / a then (s + 1, r)
    else (ceil (2 * B + (r + 1) * n) b, r + 1)
  | _ => (s + 1, 0)

/-- Step 4: only one number is left. -/
def solved : List (Nat × Nat) → Bool
  | [(a, b)] => a == b
  | _ => false

variable (k n e c : Nat)

/-- Steps 2 to 4, with at most `t` questions: the intervals that are left. -/
def loop : Nat → List (Nat × Nat) → Nat × Nat → Ask (List (Nat × Nat))
  | 0, M, _ => .done M
  | t + 1, M, (s, r) =>
    if solved M then .done M
    else .ask (question k n e c s) fun yes =>
      if yes then
        let M' := cutAll n (256 ^ (k - 2)) s M
        loop t M' (plan n (256 ^ (k - 2)) s M')
      else loop t M (skip n (256 ^ (k - 2)) s r M)

/-- The whole attack with at most `t` questions. -/
def attack (t : Nat) : Ask (List (Nat × Nat)) :=
  loop k n e c t [(2 * 256 ^ (k - 2), 3 * 256 ^ (k - 2) - 1)] (ceil n (3 * 256 ^ (k - 2)), 0)

end Verif.Spec.Bleichenbacher
