import Verif.Model.RSA
import Verif.Spec.RSA
import Mathlib.FieldTheory.Finite.Basic
import Mathlib.Tactic.Ring
import Mathlib.Data.Int.ModEq

/-! Helper lemmas: RSA -/

namespace Verif.Model.RSA
open Verif.Spec.RSA

/-! ## Modular inverses -/

theorem modInv_some {a n i : Nat} (h : modInv a n = some i) : a * i ≡ 1 [MOD n] := by
  unfold modInv at h
  split at h
  · next hg =>
    simp only [Option.some.injEq] at h
    rcases Nat.eq_zero_or_pos n with rfl | hn
    · simp only [Nat.gcd_zero_right] at hg
      subst hg
      have : i = 1 := by rw [← h, Nat.gcdA_zero_right (by decide)]; rfl
      subst this; rfl
    have e := Nat.gcd_eq_gcd_ab a n
    rw [hg] at e
    have hnn : (0 : Int) ≤ Nat.gcdA a n % (n : Int) := Int.emod_nonneg _ (by omega)
    rw [← Int.natCast_modEq_iff, ← h]
    push_cast
    rw [Int.toNat_of_nonneg hnn]
    have h1 : (a : Int) * (Nat.gcdA a n % n) ≡ a * Nat.gcdA a n [ZMOD n] := (Int.mod_modEq _ _).mul_left _
    refine h1.trans ?_
    have : (a : Int) * Nat.gcdA a n = 1 - n * Nat.gcdB a n := by push_cast at e; omega
    rw [this]
    exact (Int.modEq_iff_dvd.2 ⟨Nat.gcdB a n, by ring⟩)
  · cases h

theorem modInv_lt {a n i : Nat} (hn : 0 < n) (h : modInv a n = some i) : i < n := by
  unfold modInv at h
  split at h
  · simp only [Option.some.injEq] at h
    have h1 : (0 : Int) ≤ Nat.gcdA a n % (n : Int) := Int.emod_nonneg _ (by omega)
    have h2 : Nat.gcdA a n % (n : Int) < n := Int.emod_lt_of_pos _ (by omega)
    omega
  · cases h

theorem modInv_coprime {a n : Nat} (h : Nat.Coprime a n) : ∃ i, modInv a n = some i := by
  unfold modInv; rw [if_pos h]; exact ⟨_, rfl⟩

theorem modInv_none {a n : Nat} (h : ¬ Nat.Coprime a n) : modInv a n = none := by
  unfold modInv; rw [if_neg h]

/-! ## Exponents -/

/-- Fermat, including multiples of `p`. -/
theorem pow_modEq_pow {p : Nat} (hp : p.Prime) (c k l : Nat) (hk : 0 < k) (hl : 0 < l) (h : k ≡ l [MOD p - 1]) :
    c ^ k ≡ c ^ l [MOD p] := by
  have := Fact.mk hp
  rw [← ZMod.natCast_eq_natCast_iff]
  push_cast
  by_cases hc : (c : ZMod p) = 0
  · rw [hc, zero_pow (by omega), zero_pow (by omega)]
  · have key : ∀ a b : Nat, a ≤ b → a ≡ b [MOD p - 1] → (c : ZMod p) ^ a = (c : ZMod p) ^ b := by
      intro a b hab hm
      obtain ⟨t, ht⟩ := (Nat.modEq_iff_dvd' hab).1 hm
      have : b = a + (p - 1) * t := by omega
      rw [this, pow_add, pow_mul, ZMod.pow_card_sub_one_eq_one hc, one_pow, mul_one]
    rcases le_total k l with h' | h'
    · exact key k l h' h
    · exact (key l k h' h.symm).symm

/-- `e * d ≡ 1` modulo `p - 1 > 1` makes `d` and `d % (p - 1)` positive. -/
theorem pos_of_inv {e d m : Nat} (hm : 1 < m) (h : e * d ≡ 1 [MOD m]) : 0 < e ∧ 0 < d ∧ 0 < d % m := by
  have h1 : e * d % m = 1 := by rw [h]; exact Nat.mod_eq_of_lt hm
  refine ⟨?_, ?_, ?_⟩
  · rcases Nat.eq_zero_or_pos e with rfl | h0
    · rw [Nat.zero_mul, Nat.zero_mod] at h1; omega
    · exact h0
  · rcases Nat.eq_zero_or_pos d with rfl | h0
    · rw [Nat.mul_zero, Nat.zero_mod] at h1; omega
    · exact h0
  · rcases Nat.eq_zero_or_pos (d % m) with h0 | h0
    · rw [Nat.mul_mod, h0, Nat.mul_zero, Nat.zero_mod] at h1; omega
    · exact h0

theorem prime_gt {p : Nat} (hp : p.Prime) (h2 : p ≠ 2) : 1 < p - 1 := by
  have := hp.two_le; omega

/-- The exponents the code uses for one prime give the same residue as `d`. -/
theorem exp_red {p e d : Nat} (hp : p.Prime) (h2 : p ≠ 2) (h : e * d ≡ 1 [MOD p - 1]) (c : Nat) :
    c ^ (d % (p - 1)) ≡ c ^ d [MOD p] := by
  obtain ⟨_, h3, h4⟩ := pos_of_inv (prime_gt hp h2) h
  exact pow_modEq_pow hp c _ _ h4 h3 (Nat.mod_modEq _ _)

/-! ## Chinese remaindering -/

/-- `m1` as `decrypt` computes it: the representative below `p * q`. -/
theorem crt_combine {p q i a b x : Nat} (hp : 0 < p) (hi : q * i ≡ 1 [MOD p]) (ha : a ≡ x [MOD p]) (hb : b ≡ x [MOD q])
    (hbq : b < q) (hc : Nat.Coprime p q) (t : Int) (ht : t ≡ a - b [ZMOD p]) :
    (t * i % p) * q + b = ((x % (p * q) : Nat) : Int) := by
  have hpz : (0 : Int) < p := by exact_mod_cast hp
  have h0 := Int.emod_nonneg (t * i) (Int.ne_of_gt hpz)
  have h1 := Int.emod_lt_of_pos (t * i) hpz
  obtain ⟨u, hu⟩ := Int.eq_ofNat_of_zero_le h0
  rw [hu] at h1 ⊢
  have h1' : u < p := by exact_mod_cast h1
  have e : ((u : Int) * q + b) = ((u * q + b : Nat) : Int) := by push_cast; rfl
  rw [e]
  congr 1
  have hlt : u * q + b < p * q := by
    calc u * q + b < u * q + q := by omega
      _ = (u + 1) * q := by ring
      _ ≤ p * q := Nat.mul_le_mul_right _ h1'
  rw [← Nat.mod_eq_of_lt hlt]
  change u * q + b ≡ x [MOD p * q]
  rw [← Nat.modEq_and_modEq_iff_modEq_mul hc]
  constructor
  · rw [← Int.natCast_modEq_iff]
    push_cast
    have s1 : (u : Int) ≡ t * i [ZMOD p] := by rw [← hu]; exact Int.mod_modEq _ _
    have s2 : (u : Int) * q + b ≡ t * i * q + b [ZMOD p] := (s1.mul_right _).add_right _
    have s3 : (t * i * q + b : Int) ≡ t * 1 + b [ZMOD p] := by
      have hi' : ((q * i : Nat) : Int) ≡ ((1 : Nat) : Int) [ZMOD p] := Int.natCast_modEq_iff.2 hi
      push_cast at hi'
      have : t * (q * i) + b ≡ t * 1 + b [ZMOD p] := (hi'.mul_left _).add_right _
      have e2 : t * (q * (i : Int)) = t * i * q := by ring
      rwa [e2] at this
    refine s2.trans (s3.trans ?_)
    have s4 : t * 1 + b ≡ (a - b) * 1 + b [ZMOD p] := (ht.mul_right _).add_right _
    refine s4.trans ?_
    have e3 : ((a : Int) - b) * 1 + b = a := by ring
    rw [e3]
    exact Int.natCast_modEq_iff.2 ha
  · have : u * q + b ≡ b [MOD q] := by
      unfold Nat.ModEq
      rw [Nat.mul_comm, Nat.mul_add_mod]
    exact this.trans hb

theorem wrap_modEq (x : Int) (p : Nat) : (if x < 0 then x + (p : Int) else x) ≡ x [ZMOD p] := by
  split
  · exact Int.modEq_iff_dvd.2 ⟨-1, by ring⟩
  · rfl

theorem crtTwo_eq {p q e d : Nat} (hp : p.Prime) (hq : q.Prime) (hp2 : p ≠ 2) (hq2 : q ≠ 2) (hpq : p ≠ q) (h1 : e * d ≡ 1 [MOD p - 1])
    (h2 : e * d ≡ 1 [MOD q - 1]) (c : Nat) :
    crtTwo c (d % (p - 1)) (d % (q - 1)) p q (modInv q p) = some ((c ^ d % (p * q) : Nat) : Int) := by
  have hc : Nat.Coprime p q := (Nat.coprime_primes hp hq).2 hpq
  obtain ⟨i, hi⟩ := modInv_coprime hc.symm
  have hi' := modInv_some hi
  simp only [crtTwo, hi, BigInt.ofNat?, BigInt.mul, BigInt.remEuclid, BigInt.add, powMod]
  rw [Option.some.injEq]
  refine crt_combine hp.pos hi' ((Nat.mod_modEq _ _).trans (exp_red hp hp2 h1 c)) ((Nat.mod_modEq _ _).trans (exp_red hq hq2 h2 c))
    (Nat.mod_lt _ hq.pos) hc _ ?_
  exact wrap_modEq _ _

theorem crtStep_eq {r p e d i : Nat} (hr : 0 < r) (hp : p.Prime) (hp2 : p ≠ 2) (hc : Nat.Coprime p r) (hi : modInv r p = some i)
    (h1 : e * d ≡ 1 [MOD p - 1]) (c : Nat) :
    crtStep c (some ((c ^ d % r : Nat) : Int)) ⟨d % (p - 1), some i, r⟩ p = .ok (some ((c ^ d % (r * p) : Nat) : Int)) := by
  have hi' := modInv_some hi
  have hpz : (p : Int) ≠ 0 := by have := hp.pos; omega
  simp only [crtStep, BigInt.ofNat?, BigInt.mul, BigInt.sub, BigInt.remEuclid, BigInt.add, powMod]
  rw [if_neg (Int.not_lt.2 (Int.emod_nonneg _ hpz))]
  congr 2
  rw [Int.add_comm, Nat.mul_comm r p]
  exact crt_combine hp.pos hi' ((Nat.mod_modEq _ _).trans (exp_red hp hp2 h1 c)) (Nat.mod_modEq _ _) (Nat.mod_lt _ hr) hc _ rfl

theorem crtLoop_eq {e d : Nat} (c : Nat) (primes : List Nat) : ∀ r : Nat, 0 < r → (∀ p ∈ primes, p.Prime) → (∀ p ∈ primes, p ≠ 2) →
    primes.Nodup → (∀ p ∈ primes, Nat.Coprime p r) → (∀ p ∈ primes, e * d ≡ 1 [MOD p - 1]) →
    crtLoop c (some ((c ^ d % r : Nat) : Int)) (crtValues d r primes) primes = .ok (some ((c ^ d % (r * primes.prod) : Nat) : Int)) := by
  induction primes with
  | nil => intro r _ _ _ _ _ _; simp [crtLoop, crtValues]
  | cons p rest ih =>
    intro r hr hp hp2 hn hc h1
    have hmem : p ∈ p :: rest := List.mem_cons_self
    obtain ⟨i, hi⟩ := modInv_coprime (hc p hmem).symm
    rw [crtValues, crtLoop, hi, crtStep_eq hr (hp p hmem) (hp2 p hmem) (hc p hmem) hi (h1 p hmem) c]
    simp only [bind, Except.bind]
    rw [ih (r * p) (Nat.mul_pos hr (hp p hmem).pos) (fun x hx => hp x (List.mem_cons_of_mem _ hx)) (fun x hx => hp2 x (List.mem_cons_of_mem _ hx))
      (List.nodup_cons.1 hn).2 ?_ (fun x hx => h1 x (List.mem_cons_of_mem _ hx)), List.prod_cons, Nat.mul_assoc]
    intro x hx
    refine Nat.Coprime.mul_right (hc x (List.mem_cons_of_mem _ hx)) ?_
    refine (Nat.coprime_primes (hp x (List.mem_cons_of_mem _ hx)) (hp p hmem)).2 ?_
    rintro rfl
    exact (List.nodup_cons.1 hn).1 hx

/-- Both branches compute `c ^ d mod n`. -/
theorem raw_eq {sk : PrivateKey} (hv : ValidKey sk.pk.n sk.pk.e sk.d sk.primes) (hk : Computed sk) (c : Nat) :
    sk.raw c = .ok (some ((c ^ sk.d % sk.pk.n : Nat) : Int)) := by
  unfold PrivateKey.raw
  rcases hk with h | ⟨p, q, rest, h1, h2⟩
  · rw [h]; rfl
  · obtain ⟨-, hp, hp2, hn, hprod, hinv⟩ := hv
    rw [h1] at hp hp2 hn hprod hinv
    have hpq : p ≠ q := by
      rintro rfl
      exact (List.nodup_cons.1 hn).1 List.mem_cons_self
    have mp : p ∈ p :: q :: rest := List.mem_cons_self
    have mq : q ∈ p :: q :: rest := List.mem_cons_of_mem _ List.mem_cons_self
    have mr : ∀ x ∈ rest, x ∈ p :: q :: rest := fun x hx => List.mem_cons_of_mem _ (List.mem_cons_of_mem _ hx)
    rw [h2, h1]
    simp only [Precomputed.new, Option.getD_some]
    rw [crtTwo_eq (hp p mp) (hp q mq) (hp2 p mp) (hp2 q mq) hpq (hinv p mp) (hinv q mq) c,
      crtLoop_eq (e := sk.pk.e) c rest (p * q) (Nat.mul_pos (hp p mp).pos (hp q mq).pos) (fun x hx => hp x (mr x hx)) (fun x hx => hp2 x (mr x hx))
        (List.nodup_cons.1 (List.nodup_cons.1 hn).2).2 ?_ (fun x hx => hinv x (mr x hx)), hprod, List.prod_cons, List.prod_cons, Nat.mul_assoc]
    intro x hx
    have hnx := List.nodup_cons.1 hn
    have hnx2 := List.nodup_cons.1 hnx.2
    refine Nat.Coprime.mul_right ((Nat.coprime_primes (hp x (mr x hx)) (hp p mp)).2 ?_) ((Nat.coprime_primes (hp x (mr x hx)) (hp q mq)).2 ?_)
    · rintro rfl; exact hnx.1 (List.mem_cons_of_mem _ hx)
    · rintro rfl; exact hnx2.1 hx

/-- Congruence modulo each of several distinct primes is congruence modulo their product. -/
theorem modEq_prod {primes : List Nat} (hp : ∀ p ∈ primes, p.Prime) (hn : primes.Nodup) {a b : Nat} (h : ∀ p ∈ primes, a ≡ b [MOD p]) :
    a ≡ b [MOD primes.prod] := by
  induction primes with
  | nil => exact Nat.modEq_one
  | cons p rest ih =>
    rw [List.prod_cons, ← Nat.modEq_and_modEq_iff_modEq_mul]
    · exact ⟨h p List.mem_cons_self, ih (fun x hx => hp x (List.mem_cons_of_mem _ hx)) (List.nodup_cons.1 hn).2
        (fun x hx => h x (List.mem_cons_of_mem _ hx))⟩
    · refine Nat.coprime_list_prod_right_iff.2 ?_
      intro x hx
      refine (Nat.coprime_primes (hp p List.mem_cons_self) (hp x (List.mem_cons_of_mem _ hx))).2 ?_
      rintro rfl
      exact (List.nodup_cons.1 hn).1 hx

theorem validKey_pow {n e d : Nat} {primes : List Nat} (hv : ValidKey n e d primes) (m : Nat) : m ^ (e * d) ≡ m [MOD n] := by
  rw [hv.prod]
  refine modEq_prod hv.prime hv.distinct fun p hp => ?_
  have h1 := hv.inv p hp
  obtain ⟨h3, h4, _⟩ := pos_of_inv (prime_gt (hv.prime p hp) (hv.odd p hp)) h1
  have := pow_modEq_pow (hv.prime p hp) m (e * d) 1 (Nat.mul_pos h3 h4) (by omega) h1
  rwa [pow_one] at this

theorem validKey_pos {n e d : Nat} {primes : List Nat} (hv : ValidKey n e d primes) : 0 < n := by
  rw [hv.prod]
  exact List.prod_pos fun p hp => (hv.prime p hp).pos

/-- The blinding factor cancels. -/
theorem unblind {n e d r ir : Nat} {primes : List Nat} (hv : ValidKey n e d primes) (hr : r * ir ≡ 1 [MOD n]) (c : Nat) :
    (r ^ e % n * c % n) ^ d % n * ir ≡ c ^ d [MOD n] := by
  have h1 : r ^ e % n * c % n ≡ r ^ e * c [MOD n] := (Nat.mod_modEq _ _).trans ((Nat.mod_modEq _ _).mul_right _)
  have h2 := ((Nat.mod_modEq _ n).trans (h1.pow d)).mul_right ir
  refine h2.trans ?_
  have e1 : (r ^ e * c) ^ d * ir = r ^ (e * d) * (c ^ d * ir) := by rw [Nat.mul_pow, ← pow_mul]; ring
  rw [e1]
  refine ((validKey_pow hv r).mul_right _).trans ?_
  have e2 : r * (c ^ d * ir) = c ^ d * (r * ir) := by ring
  rw [e2]
  have := hr.mul_left (c ^ d)
  rwa [Nat.mul_one] at this

theorem blindLoop_ok {σ : Type} {g : Rng σ} {n fuel : Nat} {s s' : σ} {r ir : Nat} (h : blindLoop g n fuel s = .ok (r, ir, s')) :
    r * ir ≡ 1 [MOD n] := by
  induction fuel generalizing s with
  | zero => cases h
  | succ k ih =>
    rw [blindLoop] at h
    split at h
    · next ir' he =>
      simp only [Except.ok.injEq, Prod.mk.injEq] at h
      obtain ⟨h1, h2, -⟩ := h
      rw [← h1, ← h2]
      exact modInv_some he
    · exact ih h

theorem blindLoop_cases {σ : Type} (g : Rng σ) (n fuel : Nat) (s : σ) :
    blindLoop g n fuel s = .error .diverge ∨ ∃ r ir s', blindLoop g n fuel s = .ok (r, ir, s') := by
  induction fuel generalizing s with
  | zero => exact Or.inl rfl
  | succ k ih =>
    rw [blindLoop]
    split
    · exact Or.inr ⟨_, _, _, rfl⟩
    · exact ih _

/-- What `decrypt` returns, with a valid key and an input in range. -/
theorem decrypt_cases {σ : Type} (g : Rng σ) (fuel : Nat) {sk : PrivateKey} (hv : ValidKey sk.pk.n sk.pk.e sk.d sk.primes) (hk : Computed sk)
    {c : Nat} (hc : c ≤ sk.pk.n) (rd : Option σ) :
    ((∃ s, rd = some s ∧ blindLoop g sk.pk.n fuel s = .error .diverge) ∧ sk.decrypt g fuel c rd = .error .diverge) ∨
      ∃ rd', sk.decrypt g fuel c rd = .ok (some ((c ^ sk.d % sk.pk.n : Nat) : Int), rd') := by
  have hn := validKey_pos hv
  unfold PrivateKey.decrypt
  rw [if_neg (by omega), if_neg (by omega)]
  cases rd with
  | none =>
    refine Or.inr ⟨none, ?_⟩
    simp only [raw_eq hv hk, bind, Except.bind]
  | some s =>
    rcases blindLoop_cases g sk.pk.n fuel s with h | ⟨r, ir, s', h⟩
    · refine Or.inl ⟨⟨s, rfl, h⟩, ?_⟩
      simp only [h, bind, Except.bind]
    · refine Or.inr ⟨some s', ?_⟩
      simp only [h, bind, Except.bind, raw_eq hv hk, BigInt.mul, BigInt.remEuclid, powMod]
      have := unblind hv (blindLoop_ok h) c
      congr 3
      exact_mod_cast this

theorem blindLoop_usable {σ : Type} {g : Rng σ} {n fuel : Nat} {s : σ} (h : Usable g n fuel s) : ∃ x, blindLoop g n fuel s = .ok x := by
  induction fuel generalizing s with
  | zero => exact h.elim
  | succ k ih =>
    rw [blindLoop]
    by_cases hc : Nat.Coprime (if (g.below n s).1 = 0 then 1 else (g.below n s).1) n
    · obtain ⟨i, hi⟩ := modInv_coprime hc
      rw [hi]
      exact ⟨_, rfl⟩
    · rw [modInv_none hc]
      refine ih ?_
      rcases h with h | h | h
      · rw [if_pos h] at hc; exact absurd (Nat.coprime_one_left n) hc
      · split at hc
        · exact absurd (Nat.coprime_one_left n) hc
        · exact absurd h hc
      · exact h

/-! ## Key generation -/

theorem dedup_length_le (l : List Nat) : (dedup l).length ≤ l.length := by
  fun_induction dedup l with
  | case1 a rest ih => simp only [List.length_cons] at ih ⊢; omega
  | case2 a b rest hne ih => simp only [List.length_cons] at ih ⊢; omega
  | case3 l _ => exact Nat.le_refl _

/-- `dedup` keeps the length only if no two neighbours are equal, and then it changes nothing. -/
theorem dedup_eq {l : List Nat} (h : (dedup l).length = l.length) : dedup l = l ∧ l.IsChain (· ≠ ·) := by
  fun_induction dedup l with
  | case1 a rest ih =>
    exfalso
    have := dedup_length_le (a :: rest)
    simp only [List.length_cons] at h this; omega
  | case2 a b rest hne ih =>
    simp only [List.length_cons, Nat.add_right_cancel_iff] at h
    obtain ⟨h1, h2⟩ := ih (by simpa using h)
    exact ⟨by rw [h1], List.isChain_cons_cons.2 ⟨hne, h2⟩⟩
  | case3 l hl =>
    refine ⟨rfl, ?_⟩
    match l, hl with
    | [], _ => exact .nil
    | [a], _ => exact .singleton a
    | a :: b :: r, hl => exact absurd rfl (hl a b r)

theorem dedup_chain {l : List Nat} (h : l.IsChain (· ≠ ·)) : dedup l = l := by
  fun_induction dedup l with
  | case1 a rest ih => exact absurd rfl (List.isChain_cons_cons.1 h).1
  | case2 a b rest hne ih => rw [ih (List.isChain_cons_cons.1 h).2]
  | case3 l hl => rfl

theorem genPrimes_ok {σ : Type} {g : Rng σ} {k cbits : Nat} {s s' : σ} {ps : List Nat} (h : genPrimes g k cbits s = .ok (ps, s')) :
    ps.length = k ∧ ∀ p ∈ ps, ∃ b t, (g.prime b t).1 = some p := by
  induction k generalizing cbits s ps s' with
  | zero =>
    simp only [genPrimes, Except.ok.injEq, Prod.mk.injEq] at h
    rw [← h.1]; simp
  | succ k ih =>
    rw [genPrimes] at h
    split at h
    · cases h
    · next p s1 hp =>
      split at h
      · cases h
      · cases h2 : genPrimes g k (cbits - bitsLen p) s1 with
        | error e => rw [h2] at h; cases h
        | ok x =>
          obtain ⟨ps1, s2⟩ := x
          rw [h2] at h
          simp only [bind, Except.bind, Except.ok.injEq, Prod.mk.injEq] at h
          obtain ⟨h3, h4⟩ := ih h2
          rw [← h.1]
          refine ⟨by rw [List.length_cons, h3], ?_⟩
          intro x hx
          rcases List.mem_cons.1 hx with rfl | hx
          · exact ⟨_, _, by rw [hp]⟩
          · exact h4 x hx

/-- What is known of the result of the generation loop. -/
theorem genLoop_ok {σ : Type} {g : Rng σ} {k bits fuel : Nat} {s s' : σ} {d n : Nat} {ps : List Nat}
    (h : genLoop g k bits fuel s = .ok (d, n, ps, s')) :
    ps.length = k ∧ ps.IsChain (· ≠ ·) ∧ (∀ p ∈ ps, ∃ b t, (g.prime b t).1 = some p) ∧ n = ps.prod ∧ bitsLen n = bits ∧
      modInv 65537 (ps.map (· - 1)).prod = some d := by
  induction fuel generalizing s with
  | zero => cases h
  | succ fuel ih =>
    rw [genLoop] at h
    cases h1 : genPrimes g k (if k ≥ 7 then bits + (k - 2) / 5 else bits) s with
    | error e => rw [h1] at h; cases h
    | ok x =>
      obtain ⟨ps1, s1⟩ := x
      rw [h1] at h
      simp only [bind, Except.bind] at h
      split at h
      · exact ih h
      · next hl =>
        simp only [ne_eq, Decidable.not_not] at hl
        split at h
        · exact ih h
        · next hb =>
          simp only [ne_eq, Decidable.not_not] at hb
          split at h
          · next d' hd =>
            obtain ⟨h2, h3⟩ := genPrimes_ok h1
            obtain ⟨h4, h5⟩ := dedup_eq (hl.trans h2.symm)
            simp only [Except.ok.injEq, Prod.mk.injEq] at h
            obtain ⟨rfl, rfl, rfl, -⟩ := h
            rw [h4] at hb hd ⊢
            exact ⟨h2, h5, h3, rfl, hb, hd⟩
          · exact ih h

theorem generate_ok {σ : Type} {g : Rng σ} {fuel k bits : Nat} {tooFew : Bool} {s s' : σ} {sk : PrivateKey}
    (h : generateMultiPrimeKey g fuel tooFew k bits s = .ok (sk, s')) :
    2 ≤ k ∧ sk.primes.length = k ∧ sk.primes.IsChain (· ≠ ·) ∧ (∀ p ∈ sk.primes, ∃ b t, (g.prime b t).1 = some p) ∧ sk.pk.n = sk.primes.prod ∧
      bitsLen sk.pk.n = bits ∧ sk.pk.e = 65537 ∧ modInv 65537 (sk.primes.map (· - 1)).prod = some sk.d ∧
      ∃ p q rest, sk.primes = p :: q :: rest ∧ sk.pre = Precomputed.new p q sk.d rest := by
  unfold generateMultiPrimeKey at h
  split at h
  · cases h
  · next hk =>
    split at h
    · cases h
    · cases h1 : genLoop g k bits fuel s with
      | error e => rw [h1] at h; cases h
      | ok x =>
        obtain ⟨d, n, ps, s1⟩ := x
        rw [h1] at h
        simp only [bind, Except.bind] at h
        obtain ⟨a1, a2, a3, a4, a5, a6⟩ := genLoop_ok h1
        split at h
        · next p q rest =>
          simp only [Except.ok.injEq, Prod.mk.injEq] at h
          obtain ⟨rfl, -⟩ := h
          exact ⟨by omega, a1, a2, a3, a4, a5, rfl, a6, p, q, rest, rfl, rfl⟩
        · cases h

theorem modEq_of_totient {e d : Nat} {ps : List Nat} (h : e * d ≡ 1 [MOD (ps.map (· - 1)).prod]) (p : Nat) (hp : p ∈ ps) : e * d ≡ 1 [MOD p - 1] :=
  h.of_dvd (List.dvd_prod (List.mem_map_of_mem (f := (· - 1)) hp))

/-! ## Repeated primes -/

theorem crtStep_panic (c : Nat) (m1 : BigInt) (v : CRTValue) (p : Nat) (h : v.coeff = none) : crtStep c m1 v p = .error .panic := by
  unfold crtStep
  rw [h]
  cases m1 <;> rfl

theorem crtStep_cases (c : Nat) (m1 : BigInt) (v : CRTValue) (p : Nat) : crtStep c m1 v p = .error .panic ∨ ∃ x, crtStep c m1 v p = .ok x := by
  unfold crtStep
  split
  · exact Or.inl rfl
  · exact Or.inr ⟨_, rfl⟩

/-- If a prime divides the product of those before it, or occurs twice, the loop panics. -/
theorem crtLoop_panic (c d : Nat) (primes : List Nat) : ∀ (m1 : BigInt) (r : Nat), (∀ p ∈ primes, p.Prime) →
    (¬ primes.Nodup ∨ ∃ p ∈ primes, p ∣ r) → crtLoop c m1 (crtValues d r primes) primes = .error .panic := by
  induction primes with
  | nil =>
    intro m1 r _ h
    rcases h with h | ⟨p, hp, _⟩
    · exact absurd List.nodup_nil h
    · cases hp
  | cons p rest ih =>
    intro m1 r hp h
    rw [crtValues, crtLoop]
    by_cases hd : p ∣ r
    · have : modInv r p = none := modInv_none (fun hc => by
        have := Nat.dvd_gcd hd (Nat.dvd_refl p)
        rw [hc] at this
        exact absurd (Nat.dvd_one.1 this) (hp p List.mem_cons_self).one_lt.ne')
      rw [crtStep_panic _ _ _ _ this]
      rfl
    · rcases crtStep_cases c m1 ⟨d % (p - 1), modInv r p, r⟩ p with e | ⟨x, e⟩
      · rw [e]; rfl
      · rw [e]
        refine ih x (r * p) (fun q hq => hp q (List.mem_cons_of_mem _ hq)) ?_
        rcases h with h | ⟨q, hq, hqr⟩
        · rw [List.nodup_cons, not_and_or, not_not] at h
          rcases h with h | h
          · exact Or.inr ⟨p, h, Dvd.intro_left r rfl⟩
          · exact Or.inl h
        · rcases List.mem_cons.1 hq with rfl | hq
          · exact absurd hqr hd
          · exact Or.inr ⟨q, hq, hqr.mul_right p⟩

end Verif.Model.RSA
