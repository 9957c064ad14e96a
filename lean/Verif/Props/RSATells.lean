import Verif.Proof.RSATells
import Verif.Props.RSA

/-!
# C117: what a number encrypted with an RSA public key tells everybody

`PublicKey::encrypt` on numbers, without the encodings of PKCS #1. The wish is that someone who has only public keys and ciphertexts learns nothing about the
message; every theorem but the first says what they learn. The statements are about numbers: remainders, greatest common divisors and Mathlib's Jacobi symbol `J(a | n)`, which
is computed from `a` and `n` without the factors of `n`.
-/

namespace Verif.Props
open Verif.Model Verif.Model.RSA Verif.Spec.RSA
open scoped NumberTheorySymbols

/-- C117: different messages have different ciphertexts. So a guess of the message can be checked by everybody: the wish fails whenever the message can be guessed. -/
theorem C117_guess (sk : RSA.PrivateKey) (hv : ValidKey sk.pk.n sk.pk.e sk.d sk.primes) (m m' : Nat) (hm : m < sk.pk.n) (hm' : m' < sk.pk.n) :
    sk.pk.encrypt m' = sk.pk.encrypt m ↔ m' = m := by
  refine ⟨fun h => ?_, fun h => by rw [h]⟩
  have key : ∀ x, x < sk.pk.n → rsadp sk.pk.n sk.d (sk.pk.encrypt x) = x := by
    intro x hx
    unfold rsadp PublicKey.encrypt powMod
    rw [← Nat.pow_mod, ← pow_mul]
    have := validKey_pow hv x
    rw [Nat.ModEq, Nat.mod_eq_of_lt hx] at this
    exact this
  rw [← key m hm, ← key m' hm', h]

example : demoKey.pk.encrypt 5 = 125 ∧ demoKey.pk.encrypt 6 = 216 := by decide

/-- The number of messages that are their own ciphertexts, exactly. -/
theorem C117_fixed_points (sk : RSA.PrivateKey) (hv : ValidKey sk.pk.n sk.pk.e sk.d sk.primes) :
    ((Finset.range sk.pk.n).filter fun m => sk.pk.encrypt m = m).card = (sk.primes.map fun p => 1 + Nat.gcd (sk.pk.e - 1) (p - 1)).prod := by
  have he := validKey_odd hv
  have h := card_fixed (e := sk.pk.e) (validKey_pos hv)
  refine h.trans ?_
  rw [hv.prod, fixCount_list hv.prime hv.distinct (by omega)]

example : (demoKey.primes.map fun p => 1 + Nat.gcd (demoKey.pk.e - 1) (p - 1)).prod = 27 := by decide

/-- The wish that no message is sent as it is, refuted for every key: at least `3 ^ k` messages are their own ciphertexts, where `k ≥ 2` is the number of primes. -/
theorem C117_unchanged_refuted (sk : RSA.PrivateKey) (hv : ValidKey sk.pk.n sk.pk.e sk.d sk.primes) :
    3 ^ sk.primes.length ≤ ((Finset.range sk.pk.n).filter fun m => sk.pk.encrypt m = m).card := by
  rw [C117_fixed_points sk hv]
  have := pow_le_prod (l := sk.primes.map fun p => 1 + Nat.gcd (sk.pk.e - 1) (p - 1)) (k := 3) (fun x hx => by
    obtain ⟨p, hp, rfl⟩ := List.mem_map.1 hx
    exact three_le (validKey_odd hv) (hv.prime p hp) (hv.odd p hp))
  rwa [List.length_map] at this

example : demoKey.pk.encrypt 781 = 781 ∧ 781 < demoKey.pk.n := by decide

/-- A key with the exponent 1 leaves every message alone. It meets the equations of a key; the check of the crate refuses it. -/
theorem C117_exponent_one : ∃ sk : RSA.PrivateKey, ValidKey sk.pk.n sk.pk.e sk.d sk.primes ∧ Computed sk ∧ sk.pk.isValid = .error (.err .invalidPublicKey) ∧
    ∀ m, m < sk.pk.n → sk.pk.encrypt m = m := by
  refine ⟨⟨⟨4301, 1⟩, 1, [11, 17, 23], Precomputed.new 11 17 1 [23]⟩, ?_, Or.inr ⟨11, 17, [23], rfl, rfl⟩, by decide, fun m hm => ?_⟩
  · exact ⟨by decide, demoKey_valid.prime, demoKey_valid.odd, demoKey_valid.distinct, by decide, fun p _ => rfl⟩
  · unfold PublicKey.encrypt powMod
    rw [pow_one, Nat.mod_eq_of_lt hm]

/-- The wish refuted for every key and every message: the ciphertext has the Jacobi symbol of the message, so everybody can compute it; and there are messages for which it
differs. -/
theorem C117_jacobi_refuted (sk : RSA.PrivateKey) (hv : ValidKey sk.pk.n sk.pk.e sk.d sk.primes) :
    (∀ m : Nat, J(sk.pk.encrypt m | sk.pk.n) = J(m | sk.pk.n)) ∧ (∃ m, m < sk.pk.n ∧ J(m | sk.pk.n) = 1) ∧ ∃ m, m < sk.pk.n ∧ J(m | sk.pk.n) = -1 := by
  refine ⟨fun m => jacobi_pow m _ _ (validKey_odd hv), ⟨1, ?_, jacobiSym.one_left _⟩, ?_⟩
  · rw [hv.prod]
    have := pow_le_prod (l := sk.primes) (k := 2) fun p hp => (hv.prime p hp).two_le
    have h2 := hv.two
    have : 2 ^ 2 ≤ 2 ^ sk.primes.length := Nat.pow_le_pow_right (by omega) h2
    omega
  · obtain ⟨h1, h2, h3, h4, h5, -⟩ := hv
    rw [h5]
    cases hp : sk.primes with
    | nil => rw [hp] at h1; simp at h1
    | cons p l =>
      rw [hp] at h2 h3 h4
      rw [List.prod_cons]
      exact exists_jacobi_neg (h2 p (by simp)) (h3 p (by simp)) (fun q hq => h2 q (List.mem_cons_of_mem _ hq)) (List.nodup_cons.1 h4).1

example : J(demoKey.pk.encrypt 2 | demoKey.pk.n) = J(2 | demoKey.pk.n) := (C117_jacobi_refuted demoKey demoKey_valid).1 2

/-- A message whose power is below the modulus is not reduced: the ciphertext is a power of integers, and the message is its only root. For every public key. -/
theorem C117_small_message_refuted (pk : PublicKey) (he : 0 < pk.e) (m : Nat) (hm : m ^ pk.e < pk.n) :
    pk.encrypt m = m ^ pk.e ∧ ∀ x, x ^ pk.e = pk.encrypt m ↔ x = m := by
  have h : pk.encrypt m = m ^ pk.e := Nat.mod_eq_of_lt hm
  refine ⟨h, fun x => ?_⟩
  rw [h]
  exact ⟨fun hx => Nat.pow_left_injective (by omega) hx, fun hx => by rw [hx]⟩

example : 0 < demoKey.pk.e ∧ 16 ^ demoKey.pk.e < demoKey.pk.n ∧ demoKey.pk.encrypt 16 = 4096 := by decide

/-- One message for many recipients: with as many ciphertexts as the exponent says, the number below the product of the moduli that has the ciphertexts as remainders is the
power of the message itself. For all public keys with one exponent and coprime moduli. -/
theorem C117_broadcast_refuted (pks : List PublicKey) (e : Nat) (he : 0 < e) (hle : e ≤ pks.length) (hpe : ∀ pk ∈ pks, pk.e = e)
    (hco : (pks.map (·.n)).Pairwise Nat.Coprime) (m : Nat) (hm : ∀ pk ∈ pks, m < pk.n) (c : Nat) (hc : c < (pks.map (·.n)).prod) :
    (∀ pk ∈ pks, c % pk.n = pk.encrypt m) ↔ c = m ^ e := by
  have hne : pks.map (·.n) ≠ [] := by
    intro h
    have := congrArg List.length h
    simp at this
    subst this
    simp at hle
    omega
  have hlt : m ^ e < (pks.map (·.n)).prod := by
    have h1 := pow_lt_prod hne (m := m) (fun x hx => by obtain ⟨pk, hpk, rfl⟩ := List.mem_map.1 hx; exact hm pk hpk)
    rw [List.length_map] at h1
    rcases Nat.eq_zero_or_pos m with rfl | h0
    · rw [Nat.zero_pow he]; omega
    · exact lt_of_le_of_lt (Nat.pow_le_pow_right h0 hle) h1
  constructor
  · intro h
    have : c ≡ m ^ e [MOD (pks.map (·.n)).prod] := by
      rw [Nat.modEq_list_map_prod_iff (s := PublicKey.n) ((List.pairwise_map (f := PublicKey.n) (R := Nat.Coprime)).1 hco)]
      intro pk hpk
      have := h pk hpk
      rw [PublicKey.encrypt, powMod, hpe pk hpk] at this
      exact this
    rwa [Nat.ModEq, Nat.mod_eq_of_lt hc, Nat.mod_eq_of_lt hlt] at this
  · rintro rfl pk hpk
    rw [PublicKey.encrypt, powMod, hpe pk hpk]

example : (3 : Nat) ≤ [(⟨55, 3⟩ : PublicKey), ⟨51, 3⟩, ⟨46, 3⟩].length ∧ ([(⟨55, 3⟩ : PublicKey), ⟨51, 3⟩, ⟨46, 3⟩].map (·.n)).Pairwise Nat.Coprime ∧
    (∀ pk ∈ [(⟨55, 3⟩ : PublicKey), ⟨51, 3⟩, ⟨46, 3⟩], 29 < pk.n ∧ 24389 % pk.n = pk.encrypt 29) ∧ 29 ^ 3 = 24389 := by decide

/-- One message encrypted with two exponents and one modulus: everybody can compute it, if the exponents have no common factor (`a * e₁ = b * e₂ + 1`) and one ciphertext
has an inverse. For all public keys. -/
theorem C117_common_modulus_refuted (pk pk' : PublicKey) (hn : pk'.n = pk.n) (a b u m : Nat) (hab : a * pk.e = b * pk'.e + 1) (hm : m < pk.n)
    (hu : pk'.encrypt m ^ b * u % pk.n = 1 % pk.n) : pk.encrypt m ^ a * u % pk.n = m := by
  have h1 : pk.encrypt m ^ a ≡ m ^ (a * pk.e) [MOD pk.n] := by
    rw [Nat.mul_comm, pow_mul]
    exact (Nat.mod_modEq _ _).pow a
  have h2 : pk'.encrypt m ^ b ≡ m ^ (b * pk'.e) [MOD pk.n] := by
    rw [Nat.mul_comm, pow_mul, ← hn]
    exact (Nat.mod_modEq _ _).pow b
  have h3 : pk.encrypt m ^ a * u ≡ m [MOD pk.n] := by
    calc pk.encrypt m ^ a * u ≡ m ^ (a * pk.e) * u [MOD pk.n] := h1.mul_right u
      _ = m * (m ^ (b * pk'.e) * u) := by rw [hab, pow_succ]; ring
      _ ≡ m * (pk'.encrypt m ^ b * u) [MOD pk.n] := (h2.symm.mul_right u).mul_left m
      _ ≡ m * 1 [MOD pk.n] := Nat.ModEq.mul_left m hu
      _ = m := Nat.mul_one m
  rw [Nat.ModEq, Nat.mod_eq_of_lt hm] at h3
  exact h3

example : 2 * 3 = 1 * 5 + 1 ∧ (⟨55, 5⟩ : PublicKey).encrypt 7 ^ 1 * 43 % 55 = 1 % 55 ∧ (⟨55, 3⟩ : PublicKey).encrypt 7 ^ 2 * 43 % 55 = 7 := by decide

/-- Ciphertexts can be multiplied: everybody can make the ciphertext of a multiple of an unknown message. For all public keys. -/
theorem C117_product_refuted (pk : PublicKey) (m f : Nat) : pk.encrypt m * pk.encrypt f % pk.n = pk.encrypt (m * f % pk.n) := by
  unfold PublicKey.encrypt powMod
  rw [← Nat.mul_mod, ← mul_pow, ← Nat.pow_mod]

example : demoKey.pk.encrypt 20 * demoKey.pk.encrypt 2 % demoKey.pk.n = demoKey.pk.encrypt 40 := by decide

end Verif.Props
