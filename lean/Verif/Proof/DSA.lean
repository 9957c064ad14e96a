import Verif.Model.DSA
import Verif.Spec.DSA
import Verif.Proof.RSABytes
import Verif.Proof.RSA
import Mathlib.FieldTheory.Finite.Basic
import Mathlib.RingTheory.ZMod.UnitsCyclic

/-! Lemmas about DSA. -/

namespace Verif.Model.DSA
open Verif.Model.RSA (Rng powMod modInv bitsLen hLen hashParts drawWords natBytes)
open Verif.Spec.DSA

variable {σ S : Type}

/-! ## Container -/

theorem natBytes_ne {n : Nat} (h : 0 < n) : natBytes n ≠ [] := by
  intro e
  have := RSA.beNat_natBytes n
  rw [e] at this
  rw [← this] at h
  exact absurd h (by decide)

theorem ofBeBytes_natBytes {n : Nat} (h : 0 < n) : ofBeBytes (natBytes n) = some n := by
  unfold ofBeBytes
  have := natBytes_ne h
  cases hb : natBytes n with
  | nil => exact absurd hb this
  | cons x xs => rw [← hb, RSA.beNat_natBytes, hb]; rfl

theorem toBigint_of (r s : Nat) (hr : 0 < r) (hs : 0 < s) (l : Nat) :
    SigContent.toBigint ⟨natBytes r ++ natBytes s, (natBytes r).length, l⟩ = .ok (some r, some s) := by
  unfold SigContent.toBigint
  rw [if_pos (by show (natBytes r).length ≤ (natBytes r ++ natBytes s).length; rw [List.length_append]; omega)]
  simp only [List.take_left', List.drop_left']
  rw [ofBeBytes_natBytes hr, ofBeBytes_natBytes hs]

/-! ## Arithmetic -/

theorem fermatInverse_spec {q k : Nat} (hq : q.Prime) (hk : ¬ q ∣ k) : k * fermatInverse k q ≡ 1 [MOD q] := by
  have h2 := hq.two_le
  have hc : Nat.Coprime k q := (Nat.Coprime.symm ((Nat.Prime.coprime_iff_not_dvd hq).2 hk))
  have e : k * k ^ (q - 2) = k ^ (q - 1) := by
    rw [show q - 1 = (q - 2) + 1 by omega, Nat.pow_succ, Nat.mul_comm]
  have h1 : k ^ (q - 1) ≡ 1 [MOD q] := by
    have := Nat.ModEq.pow_totient hc
    rwa [Nat.totient_prime hq] at this
  unfold fermatInverse powMod
  exact ((Nat.mod_modEq _ _).mul_left k).trans (by rw [e]; exact h1)

theorem fermatInverse_zero {q k : Nat} (hq : 2 < q) (hk : q ∣ k) : fermatInverse k q = 0 := by
  unfold fermatInverse powMod
  rw [← Nat.dvd_iff_mod_eq_zero]
  exact Dvd.dvd.trans hk (dvd_pow_self k (by omega))

theorem pow_modEq {g p q a b : Nat} (hg : g ^ q % p = 1 % p) (h : a ≡ b [MOD q]) : g ^ a ≡ g ^ b [MOD p] := by
  have key : ∀ a, g ^ a ≡ g ^ (a % q) [MOD p] := fun a => by
    have e : g ^ a = (g ^ q) ^ (a / q) * g ^ (a % q) := by rw [← pow_mul, ← pow_add, Nat.div_add_mod]
    rw [e]
    have : (g ^ q) ^ (a / q) ≡ 1 ^ (a / q) [MOD p] := Nat.ModEq.pow _ hg
    rw [one_pow] at this
    simpa using this.mul_right (g ^ (a % q))
  exact (key a).trans (by rw [show a % q = b % q from h]; exact (key b).symm)

/-- Signatures made as in section 4.6 are accepted as in section 4.7. -/
theorem accepts_of {p q g y x z k r s : Nat} (hq : q.Prime) (hg : g ^ q % p = 1 % p) (hy : y = g ^ x % p)
    (hr : r < q) (h : IsSignature p q g x z k r s) : Accepts p q g y z r s := by
  have hc : Nat.Coprime s q := (Nat.Coprime.symm ((Nat.Prime.coprime_iff_not_dvd hq).2 fun hd => absurd (Nat.le_of_dvd h.s_pos hd) (by have := h.s_lt; omega)))
  obtain ⟨w, hw⟩ := RSA.modInv_coprime hc
  have hw1 := RSA.modInv_some hw
  refine ⟨h.r_pos, hr, h.s_pos, h.s_lt, w, RSA.modInv_lt hq.pos hw, hw1, ?_⟩
  have e1 : z * w % q + x * (r * w % q) ≡ k [MOD q] := by
    have a1 : z * w % q + x * (r * w % q) ≡ z * w + x * (r * w) [MOD q] := Nat.ModEq.add (Nat.mod_modEq _ _) ((Nat.mod_modEq _ _).mul_left x)
    have a2 : (z + x * r) * w ≡ s * k * w [MOD q] := (h.s_eq.symm).mul_right w
    have a3 : s * k * w ≡ 1 * k [MOD q] := by
      rw [show s * k * w = s * w * k by ring]
      exact hw1.mul_right k
    rw [one_mul] at a3
    exact a1.trans (by rw [show z * w + x * (r * w) = (z + x * r) * w by ring]; exact a2.trans a3)
  have e2 : g ^ (z * w % q) * y ^ (r * w % q) ≡ g ^ k [MOD p] := by
    have b1 : y ^ (r * w % q) ≡ g ^ (x * (r * w % q)) [MOD p] := by
      rw [hy, pow_mul]; exact (Nat.mod_modEq _ _).pow _
    refine (b1.mul_left (g ^ (z * w % q))).trans ?_
    rw [← pow_add]
    exact pow_modEq hg e1
  rw [show g ^ (z * w % q) * y ^ (r * w % q) % p = g ^ k % p from e2]
  exact h.r_eq

/-! ## Signing -/

theorem drawK_pos {g : Rng σ} {q : Nat} {fuel : Nat} {s s' : σ} {k : Nat} (h : drawK g q fuel s = .ok (k, s')) : 0 < k := by
  induction fuel generalizing s with
  | zero => cases h
  | succ n ih =>
    rw [drawK] at h
    split at h
    · next c => simp only [Except.ok.injEq] at h; rw [h] at c; exact c
    · exact ih h

theorem signLoop_ok {g : Rng σ} {fuel : Nat} {sk : PrivateKey} {hm : Bytes} {n : Nat} {attempts : Nat} {rd rd' : σ} {r s : Nat}
    (hq : sk.pk.dp.q.Prime) (hq2 : 2 < sk.pk.dp.q) (h : signLoop g fuel sk hm hm.length n attempts rd = .ok (r, s, rd')) :
    r < sk.pk.dp.q ∧ ∃ k, 0 < k ∧ IsSignature sk.pk.dp.p sk.pk.dp.q sk.pk.dp.g sk.x (leftmost n hm) k r s := by
  induction attempts generalizing rd with
  | zero => cases h
  | succ m ih =>
    rw [signLoop] at h
    cases hk : drawK g sk.pk.dp.q fuel rd with
    | error e => rw [hk] at h; cases h
    | ok ks =>
      obtain ⟨k, rd2⟩ := ks
      have hs : RSA.slice hm 0 (min hm.length n) = .ok (hm.take n) := by
        unfold RSA.slice
        rw [if_pos ⟨Nat.zero_le _, Nat.min_le_left _ _⟩, List.drop_zero, Nat.min_comm, ← List.take_eq_take_min]
      have hz : (ofBeBytes (hm.take n)).getD 0 = leftmost n hm := by
        unfold ofBeBytes leftmost
        cases hm.take n <;> rfl
      rw [hk] at h
      simp only [bind, Except.bind, hs, hz] at h
      split at h
      · exact ih h
      · next c1 =>
        split at h
        · exact ih h
        · next c2 =>
          simp only [Except.ok.injEq, Prod.mk.injEq] at h
          obtain ⟨h1, h2, -⟩ := h
          have hr : r < sk.pk.dp.q := by rw [← h1]; exact Nat.mod_lt _ hq.pos
          have hnd : ¬ sk.pk.dp.q ∣ k := by
            intro hd
            rw [fermatInverse_zero hq2 hd] at c2
            exact c2 (by simp)
          refine ⟨hr, k, drawK_pos hk, ⟨?_, ?_, ?_, ?_, ?_⟩⟩
          · rw [← h1]; exact Nat.pos_of_ne_zero c1
          · rw [← h2]; exact Nat.pos_of_ne_zero c2
          · rw [← h2]; exact Nat.mod_lt _ hq.pos
          · rw [← h1]; rfl
          · rw [← h2, ← h1]
            have e1 : ∀ a b : Nat, (a % sk.pk.dp.q * b % sk.pk.dp.q) * k ≡ a * (k * b) [MOD sk.pk.dp.q] := fun a b => by
              rw [show a * (k * b) = a * b * k by ring]
              exact Nat.ModEq.mul_right k ((Nat.mod_modEq _ _).trans ((Nat.mod_modEq _ _).mul_right b))
            refine (e1 _ _).trans ?_
            have := (fermatInverse_spec hq hnd).mul_left (sk.x * (powMod sk.pk.dp.g k sk.pk.dp.p % sk.pk.dp.q) + leftmost n hm)
            rw [mul_one] at this
            rw [Nat.add_comm (leftmost n hm)]
            exact this

/-- The first draw is used if it leads to non-zero `r` and `s`. -/
theorem signLoop_first {g : Rng σ} {fuel : Nat} {sk : PrivateKey} {hm : Bytes} {n : Nat} {attempts : Nat} {rd rd' : σ} {k : Nat}
    (hk : drawK g sk.pk.dp.q fuel rd = .ok (k, rd')) (hr : sk.pk.dp.g ^ k % sk.pk.dp.p % sk.pk.dp.q ≠ 0)
    (hs : (sk.x * (sk.pk.dp.g ^ k % sk.pk.dp.p % sk.pk.dp.q) + leftmost n hm) % sk.pk.dp.q * fermatInverse k sk.pk.dp.q % sk.pk.dp.q ≠ 0) :
    signLoop g fuel sk hm hm.length n (attempts + 1) rd = .ok (sk.pk.dp.g ^ k % sk.pk.dp.p % sk.pk.dp.q,
      (sk.x * (sk.pk.dp.g ^ k % sk.pk.dp.p % sk.pk.dp.q) + leftmost n hm) % sk.pk.dp.q * fermatInverse k sk.pk.dp.q % sk.pk.dp.q, rd') := by
  have hsl : RSA.slice hm 0 (min hm.length n) = .ok (hm.take n) := by
    unfold RSA.slice
    rw [if_pos ⟨Nat.zero_le _, Nat.min_le_left _ _⟩, List.drop_zero, Nat.min_comm, ← List.take_eq_take_min]
  have hz : (ofBeBytes (hm.take n)).getD 0 = leftmost n hm := by
    unfold ofBeBytes leftmost
    cases hm.take n <;> rfl
  rw [signLoop, hk]
  simp only [bind, Except.bind, hsl, hz, powMod, hr, if_false, hs]

/-- `signLoop` never panics and its only error is the one for degenerate keys. -/
theorem signLoop_cases (g : Rng σ) (fuel : Nat) (sk : PrivateKey) (hm : Bytes) (n : Nat) (attempts : Nat) (rd : σ) :
    (∃ x, signLoop g fuel sk hm hm.length n attempts rd = .ok x) ∨ signLoop g fuel sk hm hm.length n attempts rd = .error (.err .invalidPrivateKey) ∨
      signLoop g fuel sk hm hm.length n attempts rd = .error .diverge := by
  have hd : ∀ (f : Nat) (rd : σ), (∃ x, drawK g sk.pk.dp.q f rd = .ok x) ∨ drawK g sk.pk.dp.q f rd = .error .diverge := by
    intro f
    induction f with
    | zero => intro rd; exact Or.inr rfl
    | succ f ih => intro rd; rw [drawK]; split; · exact Or.inl ⟨_, rfl⟩
                   exact ih _
  induction attempts generalizing rd with
  | zero => exact Or.inr (Or.inl rfl)
  | succ m ih =>
    have hsl : RSA.slice hm 0 (min hm.length n) = .ok (hm.take n) := by
      unfold RSA.slice
      rw [if_pos ⟨Nat.zero_le _, Nat.min_le_left _ _⟩, List.drop_zero, Nat.min_comm, ← List.take_eq_take_min]
    rw [signLoop]
    rcases hd fuel rd with ⟨⟨k, s⟩, h⟩ | h
    · rw [h]
      simp only [bind, Except.bind, hsl]
      split
      · exact ih _
      · split
        · exact ih _
        · exact Or.inl ⟨_, rfl⟩
    · rw [h]; exact Or.inr (Or.inr rfl)

/-! ## Verifying -/

theorem and7 (n : Nat) : n &&& 7 ≠ 0 ↔ n % 8 ≠ 0 := by
  rw [show (7 : Nat) = 2 ^ 3 - 1 by rfl, Nat.and_two_pow_sub_one_eq_mod]

section
variable {d : Digest S} {H : Bytes → Bytes} {bs : Option Nat} {size : Nat} {Abs Chk : S → Bytes → Prop}

theorem verifyInner_eq (L : LawfulDigest d H bs size Abs Chk) (o : Obj σ S) (hh : ∃ x, Abs o.hf x ∨ Chk o.hf x) (hp : o.kp.publicKey.dp.p ≠ 0)
    (hb : bitsLen o.kp.publicKey.dp.q % 8 = 0) (msg : Bytes) (hm : msg.length < 2 ^ 64) (r s : Nat) :
    (Accepts o.kp.publicKey.dp.p o.kp.publicKey.dp.q o.kp.publicKey.dp.g o.kp.publicKey.y (beNat (H msg)) r s →
      ∃ hf', verifyInner d o msg (some r) (some s) = .ok { o with hf := hf' } ∧ ∃ x, Abs hf' x ∨ Chk hf' x) ∧
    (¬ Accepts o.kp.publicKey.dp.p o.kp.publicKey.dp.q o.kp.publicKey.dp.g o.kp.publicKey.y (beNat (H msg)) r s →
      verifyInner d o msg (some r) (some s) = .error (.err .verificationFailed)) := by
  obtain ⟨x, hx⟩ := hh
  obtain ⟨hf', e, hc⟩ := RSA.hashParts_ok L hx [msg] (by simpa using hm)
  rw [show [msg].flatten = msg by simp] at e hc
  have n1 : ¬ (o.kp.publicKey.dp.p = 0 ∨ bitsLen o.kp.publicKey.dp.q &&& 7 ≠ 0) := by
    rw [and7]; push Not; exact ⟨hp, hb⟩
  unfold verifyInner
  simp only [n1, if_false]
  by_cases c : r = 0 ∨ s = 0 ∨ r ≥ o.kp.publicKey.dp.q ∨ s ≥ o.kp.publicKey.dp.q
  · rw [if_pos c]
    refine ⟨fun h => ?_, fun _ => rfl⟩
    obtain ⟨a1, a2, a3, a4, -⟩ := h
    omega
  · rw [if_neg c]
    push Not at c
    cases hw : modInv s o.kp.publicKey.dp.q with
    | none =>
      refine ⟨fun h => ?_, fun _ => rfl⟩
      obtain ⟨-, -, -, -, w, -, h1, -⟩ := h
      exfalso
      have : Nat.Coprime s o.kp.publicKey.dp.q := Nat.coprime_of_mul_modEq_one w h1
      obtain ⟨i, hi⟩ := RSA.modInv_coprime this
      rw [hw] at hi; cases hi
    | some w =>
      have w1 := RSA.modInv_some hw
      have w2 := RSA.modInv_lt (by omega) hw
      have w0 : w ≠ 0 := by
        rintro rfl
        rw [mul_zero] at w1
        have : 0 % o.kp.publicKey.dp.q = 1 % o.kp.publicKey.dp.q := w1
        rw [Nat.zero_mod, Nat.mod_eq_of_lt (by omega)] at this
        exact absurd this (by decide)
      simp only [w0, if_false, bind, Except.bind, e]
      have ev : powMod o.kp.publicKey.dp.g (beNat (H msg) * w % o.kp.publicKey.dp.q) o.kp.publicKey.dp.p *
          powMod o.kp.publicKey.y (r * w % o.kp.publicKey.dp.q) o.kp.publicKey.dp.p % o.kp.publicKey.dp.p % o.kp.publicKey.dp.q =
          o.kp.publicKey.dp.g ^ (beNat (H msg) * w % o.kp.publicKey.dp.q) * o.kp.publicKey.y ^ (r * w % o.kp.publicKey.dp.q) %
          o.kp.publicKey.dp.p % o.kp.publicKey.dp.q := by
        unfold powMod
        rw [← Nat.mul_mod]
      rw [ev]
      by_cases cv : o.kp.publicKey.dp.g ^ (beNat (H msg) * w % o.kp.publicKey.dp.q) * o.kp.publicKey.y ^ (r * w % o.kp.publicKey.dp.q) %
          o.kp.publicKey.dp.p % o.kp.publicKey.dp.q = r
      · rw [if_pos cv]
        exact ⟨fun _ => ⟨hf', rfl, _, Or.inr hc⟩, fun h => absurd ⟨by omega, by omega, by omega, by omega, w, w2, w1, cv.symm⟩ h⟩
      · rw [if_neg cv]
        refine ⟨fun h => ?_, fun _ => rfl⟩
        obtain ⟨-, -, -, -, w', h2, h1, h3⟩ := h
        exfalso
        have : w' = w := by
          have h4 : w' ≡ w [MOD o.kp.publicKey.dp.q] := by
            have a : w' * (s * w) ≡ w' * 1 [MOD o.kp.publicKey.dp.q] := w1.mul_left w'
            have b : w * (s * w') ≡ w * 1 [MOD o.kp.publicKey.dp.q] := h1.mul_left w
            rw [mul_one] at a b
            rw [show w * (s * w') = w' * (s * w) by ring] at b
            exact a.symm.trans b
          have h5 : w' % o.kp.publicKey.dp.q = w % o.kp.publicKey.dp.q := h4
          rwa [Nat.mod_eq_of_lt h2, Nat.mod_eq_of_lt w2] at h5
        rw [this] at h3
        exact cv h3.symm

end

/-! ## Generation -/

theorem orAt_length {b b' : Bytes} {i : Nat} {m : Byte} (h : orAt b i m = .ok b') : b'.length = b.length := by
  unfold orAt at h
  split at h
  · simp only [Except.ok.injEq] at h; rw [← h, List.length_set]
  · cases h

theorem candidate_ok {g : PRng σ} {l q p : Nat} {s s' : σ} (h : candidate g l q s = .ok (p, s')) :
    0 < q ∧ 0 < p ∧ q ∣ p - 1 ∧ p ≤ 256 ^ (l / 8) := by
  have hl3 : l >>> 3 = l / 8 := by rw [Nat.shiftRight_eq_div_pow]
  unfold candidate at h
  rw [hl3] at h
  by_cases c0 : l / 8 = 0
  · simp only [bind, Except.bind, c0, if_true] at h; cases h
  simp only [c0, if_false, bind, Except.bind] at h
  cases hb1 : orAt ((drawWords g.toRng (max 1 ((l / 8 + 3) / 4)) s).1.take (l / 8)) (l / 8 - 1) 1#8 with
  | error e => rw [hb1] at h; cases h
  | ok b1 =>
    rw [hb1] at h
    dsimp only at h
    cases hb2 : orAt b1 0 0x80#8 with
    | error e => rw [hb2] at h; cases h
    | ok b2 =>
      rw [hb2] at h
      dsimp only at h
      by_cases hq : q = 0
      · rw [if_pos hq] at h; cases h
      · rw [if_neg hq] at h
        simp only [Except.ok.injEq, Prod.mk.injEq] at h
        obtain ⟨h, -⟩ := h
        have hlen : b2.length ≤ l / 8 := by
          rw [orAt_length hb2, orAt_length hb1, List.length_take]; omega
        have hlt : beNat b2 < 256 ^ (l / 8) := Nat.lt_of_lt_of_le (beNat_lt b2) (Nat.pow_le_pow_right (by decide) hlen)
        generalize beNat b2 = X at h hlt
        have hle : X % q ≤ X := Nat.mod_le _ _
        have hp : p = X + 1 - X % q := by
          rw [← h]; split
          · rfl
          · next c => push Not at c; rw [c]; rfl
        refine ⟨by omega, by omega, ?_, by omega⟩
        rw [hp, show X + 1 - X % q - 1 = X - X % q by omega]
        exact Nat.dvd_sub_mod X

theorem tryP_ok {g : PRng σ} {l q p tries : Nat} {s s' : σ} (h : tryP g l q tries s = .ok (some p, s')) :
    0 < q ∧ 0 < p ∧ q ∣ p - 1 ∧ p ≤ 256 ^ (l / 8) ∧ l ≤ bitsLen p ∧ ∃ s, (g.probPrime p s).1 = true := by
  induction tries generalizing s with
  | zero => simp only [tryP, Except.ok.injEq, Prod.mk.injEq] at h; exact absurd h.1 (by simp)
  | succ n ih =>
    rw [tryP] at h
    cases hc : candidate g l q s with
    | error e => rw [hc] at h; cases h
    | ok ps =>
      obtain ⟨p', s1⟩ := ps
      rw [hc] at h
      simp only [bind, Except.bind] at h
      split at h
      · exact ih h
      · next c =>
        split at h
        · next s2 ht =>
          simp only [Except.ok.injEq, Prod.mk.injEq, Option.some.injEq] at h
          obtain ⟨rfl, -⟩ := h
          obtain ⟨a1, a2, a3, a4⟩ := candidate_ok hc
          exact ⟨a1, a2, a3, a4, by omega, s1, by rw [ht]⟩
        · exact ih h

theorem genPQ_ok {g : PRng σ} {l n p q fuel : Nat} {s s' : σ} (h : genPQ g l n fuel s = .ok (p, q, s')) :
    0 < q ∧ 0 < p ∧ q ∣ p - 1 ∧ p ≤ 256 ^ (l / 8) ∧ l ≤ bitsLen p ∧ (∃ s, (g.probPrime p s).1 = true) ∧ ∃ s, (g.prime n s).1 = some q := by
  induction fuel generalizing s with
  | zero => cases h
  | succ f ih =>
    rw [genPQ] at h
    split at h
    · cases h
    · next q' s1 hq =>
      cases ht : tryP g l q' (l <<< 2) s1 with
      | error e => rw [ht] at h; cases h
      | ok r =>
        obtain ⟨po, s2⟩ := r
        rw [ht] at h
        simp only [bind, Except.bind] at h
        cases po with
        | none => exact ih h
        | some p' =>
          simp only [Except.ok.injEq, Prod.mk.injEq] at h
          obtain ⟨rfl, rfl, -⟩ := h
          obtain ⟨a1, a2, a3, a4, a5, a6⟩ := tryP_ok ht
          exact ⟨a1, a2, a3, a4, a5, a6, s, by rw [hq]⟩

/-- There is a base whose power is not 1. -/
theorem exists_base {p e : Nat} (hp : p.Prime) (he : 0 < e) (hl : e < p - 1) : ∃ a, 2 ≤ a ∧ a < p ∧ a ^ e % p ≠ 1 := by
  have := Fact.mk hp
  obtain ⟨u, hu⟩ := IsCyclic.exists_generator (α := (ZMod p)ˣ)
  have ho : orderOf u = p - 1 := by
    rw [orderOf_eq_card_of_forall_mem_zpowers hu, Nat.card_eq_fintype_card, ZMod.card_units_eq_totient, Nat.totient_prime hp]
  have hne : (u : ZMod p) ^ e ≠ 1 := by
    intro h
    have : u ^ e = 1 := Units.ext (by simpa using h)
    have := orderOf_dvd_of_pow_eq_one this
    rw [ho] at this
    exact absurd (Nat.le_of_dvd he this) (by omega)
  have hcast : ((ZMod.val (u : ZMod p) : Nat) : ZMod p) = u := ZMod.natCast_zmod_val _
  have hpow : (ZMod.val (u : ZMod p)) ^ e % p ≠ 1 := by
    intro h
    apply hne
    have h2 : (((ZMod.val (u : ZMod p)) ^ e : Nat) : ZMod p) = ((1 : Nat) : ZMod p) := by
      rw [ZMod.natCast_eq_natCast_iff]
      show _ % p = 1 % p
      rw [h, Nat.mod_eq_of_lt hp.one_lt]
    rw [Nat.cast_pow, hcast, Nat.cast_one] at h2
    exact h2
  have h0 : (u : ZMod p) ≠ 0 := u.ne_zero
  have hv0 : ZMod.val (u : ZMod p) ≠ 0 := by rwa [Ne, ZMod.val_eq_zero]
  refine ⟨ZMod.val (u : ZMod p), ?_, ZMod.val_lt _, hpow⟩
  by_contra hlt
  have : ZMod.val (u : ZMod p) = 1 := by omega
  rw [this, one_pow, Nat.mod_eq_of_lt hp.one_lt] at hpow
  exact hpow rfl

theorem findG_ok {p e : Nat} (a : Nat) (ha : a ^ e % p ≠ 1) : ∀ (fuel h : Nat), h ≤ a → a < h + fuel →
    ∃ b, h ≤ b ∧ b ≤ a ∧ b ^ e % p ≠ 1 ∧ findG p e fuel h = .ok (b ^ e % p) := by
  intro fuel
  induction fuel with
  | zero => intro h h1 h2; omega
  | succ f ih =>
    intro h h1 h2
    rw [findG]
    by_cases c : powMod h e p = 1
    · rw [if_pos c]
      have : h ≠ a := by rintro rfl; exact ha c
      obtain ⟨b, b1, b2, b3, b4⟩ := ih (h + 1) (by omega) (by omega)
      exact ⟨b, by omega, b2, b3, b4⟩
    · rw [if_neg c]
      exact ⟨h, Nat.le_refl _, h1, c, rfl⟩

/-- For a prime `p` and a divisor `q > 1` of `p - 1` the search ends, with an element of order dividing `q`. -/
theorem findG_spec {p q : Nat} (hp : p.Prime) (hq : 1 < q) (hd : q ∣ p - 1) :
    ∃ g, findG p ((p - 1) / q) p 2 = .ok g ∧ 1 < g ∧ g < p ∧ g ^ q % p = 1 := by
  have h2 := hp.two_le
  have hle := Nat.le_of_dvd (by omega) hd
  have he : 0 < (p - 1) / q := Nat.div_pos hle (by omega)
  have hl : (p - 1) / q < p - 1 := Nat.div_lt_self (by omega) hq
  obtain ⟨a, a1, a2, a3⟩ := exists_base hp he hl
  obtain ⟨b, b1, b2, b3, b4⟩ := findG_ok a a3 p 2 a1 (by omega)
  have hb : ¬ p ∣ b := fun h => absurd (Nat.le_of_dvd (by omega) h) (by omega)
  have hpw : b ^ (p - 1) % p = 1 := by
    have := Nat.ModEq.pow_totient (Nat.Coprime.symm ((Nat.Prime.coprime_iff_not_dvd hp).2 hb))
    rw [Nat.totient_prime hp] at this
    have h3 : b ^ (p - 1) % p = 1 % p := this
    rwa [Nat.mod_eq_of_lt hp.one_lt] at h3
  refine ⟨b ^ ((p - 1) / q) % p, b4, ?_, Nat.mod_lt _ hp.pos, ?_⟩
  · have : b ^ ((p - 1) / q) % p ≠ 0 := by
      intro h0
      exact hb (hp.dvd_of_dvd_pow (Nat.dvd_of_mod_eq_zero h0))
    omega
  · rw [← Nat.pow_mod, ← pow_mul, Nat.div_mul_cancel hd, hpw]

theorem drawX_ok {g : PRng σ} {q x fuel : Nat} {s s' : σ} (h : drawX g q fuel s = .ok (x, s')) : 0 < x ∧ x < q := by
  induction fuel generalizing s with
  | zero => cases h
  | succ f ih =>
    rw [drawX] at h
    split at h
    · next c => simp only [Except.ok.injEq] at h; rw [h] at c; exact ⟨Nat.pos_of_ne_zero c.1, c.2⟩
    · exact ih h

end Verif.Model.DSA
