import Verif.Proof.PSS

/-! # RSA keys that are not what they should be: helper lemmas -/

namespace Verif.Model.RSA
open Verif.Spec.RSA

variable {σ : Type}

/-- What `decrypt_and_check` hands out has passed the check, whatever the key is. -/
theorem check_ok {g : Rng σ} {fuel : Nat} {sk : PrivateKey} {c m : Nat} {rd rd' : Option σ}
    (h : sk.decryptAndCheck g fuel c rd = .ok (m, rd')) : 0 < sk.pk.n ∧ m ^ sk.pk.e % sk.pk.n = c ∧
      ∃ rd'', sk.decrypt g fuel c rd = .ok (some (m : Int), rd'') := by
  unfold PrivateKey.decryptAndCheck at h
  simp only [bind, Except.bind] at h
  split at h
  · cases h
  · next x hx =>
    obtain ⟨y, rd2⟩ := x
    have hn : 0 < sk.pk.n := by
      rcases Nat.eq_zero_or_pos sk.pk.n with h0 | h0
      · unfold PrivateKey.decrypt at hx
        rw [h0] at hx
        split at hx
        · cases hx
        · simp at hx
      · exact h0
    simp only at h
    split at h
    · next m' =>
      split at h
      · cases h
      · next hc =>
        simp only [Except.ok.injEq, Prod.mk.injEq] at h
        refine ⟨hn, ?_, rd2, ?_⟩
        · rw [← h.1]; exact (Decidable.not_not.1 hc).symm
        · rw [hx, ← h.1]; rfl
    · cases h

theorem rawSign_ok {g : Rng σ} {fuel : Nat} {sk : PrivateKey} {bl : Bool} {s s' : σ} {c m : Nat}
    (h : PKCS1.rawSign g fuel sk bl s c = .ok (m, s')) : 0 < sk.pk.n ∧ m ^ sk.pk.e % sk.pk.n = c ∧
      ∃ rd'', sk.decrypt g fuel c (if bl = true then some s else none) = .ok (some (m : Int), rd'') := by
  unfold PKCS1.rawSign at h
  simp only [bind, Except.bind] at h
  split at h
  · cases h
  · next x hx =>
    obtain ⟨y, rd2⟩ := x
    simp only [Except.ok.injEq, Prod.mk.injEq] at h
    rw [h.1] at hx
    exact check_ok hx

theorem beNat_padTo (k : Nat) (b : Bytes) : beNat (padTo k b) = beNat b := by
  rw [padTo, beNat_append, beNat_replicate_zero, Nat.zero_mul, Nat.zero_add]

end Verif.Model.RSA

namespace Verif.Model.PKCS1
open Verif.Model.RSA Verif.Spec.RSA
open Verif.Spec (toBE)
open Verif.Spec.PKCS1 (emsa)

variable {σ S : Type} {d : Digest S} {H : Bytes → Bytes} {bs : Option Nat} {size : Nat} {Abs Chk : S → Bytes → Prop}

/-- What `sign` hands out, whatever the key is. -/
theorem sign_ok (L : LawfulDigest d H bs size Abs Chk) {g : Rng σ} {fuel : Nat} {sk : RSA.PrivateKey} {o o' : Obj σ S} (ho : o.kp = .pri sk)
    (hh : ∃ x, Abs o.hf x ∨ Chk o.hf x) {pre : Bytes} (hp : hashPrefix o.ty = .ok pre) {msg sig : Bytes} (hm : msg.length < 2 ^ 64)
    (h : sign g fuel d o msg = .ok (o', sig)) :
    pre.length + size + 11 ≤ sk.pk.modulusLen ∧ 0 < sk.pk.n ∧ beNat sig ^ sk.pk.e % sk.pk.n = beNat (emsa sk.pk.modulusLen (pre ++ H msg)) ∧
      o'.kp = o.kp ∧ o'.ty = o.ty ∧ (∃ x, Abs o'.hf x ∨ Chk o'.hf x) ∧ sig = padTo sk.pk.modulusLen (natBytes (beNat sig)) ∧
      ∃ rd'', sk.decrypt g fuel (beNat (emsa sk.pk.modulusLen (pre ++ H msg))) (if o.blinding = true then some o.rd else none) =
        .ok (some (beNat sig : Int), rd'') := by
  obtain ⟨x, hx⟩ := hh
  obtain ⟨hf', eh, ch⟩ := hashParts_ok L hx [msg] (by simpa using hm)
  have ef : [msg].flatten = msg := by simp
  rw [ef] at eh ch
  have em : [0x00#8, 0x01#8] ++ List.replicate (sk.pk.modulusLen - (pre.length + size) - 3) 0xff#8 ++ [0x00#8] ++ pre ++ H msg =
      emsa sk.pk.modulusLen (pre ++ H msg) := by simp [emsa, L.length]
  unfold sign at h
  rw [hLen_eq L hx, hp, ho] at h
  simp only [bind, Except.bind, KeyPair.privateKey, eh, em] at h
  split at h
  · cases h
  · next hk =>
    split at h
    · cases h
    · next y hy =>
      obtain ⟨m, rd⟩ := y
      simp only [Except.ok.injEq, Prod.mk.injEq] at h
      obtain ⟨h1, h2⟩ := h
      have hs : beNat sig = m := by rw [← h2, beNat_padTo, beNat_natBytes]
      obtain ⟨a, b, c⟩ := rawSign_ok hy
      rw [hs]
      exact ⟨by omega, a, b, by rw [← h1]; exact ho.symm, by rw [← h1], by rw [← h1]; exact ⟨_, Or.inr ch⟩, h2.symm, c⟩

end Verif.Model.PKCS1

namespace Verif.Model.PSS
open Verif.Model.RSA Verif.Spec.RSA
open Verif.Spec (toBE)
open Verif.Spec.PKCS1 (pss)

variable {σ S : Type} {d : Digest S} {H : Bytes → Bytes} {bs : Option Nat} {size : Nat} {Abs Chk : S → Bytes → Prop}

/-- What `sign_with_salt` hands out, whatever the key is. -/
theorem signWithSalt_ok (L : LawfulDigest d H bs size Abs Chk) (hs : 0 < size) {debug : Bool} {g : Rng σ} {fuel : Nat} {sk : RSA.PrivateKey}
    {o o' : Obj σ S} (ho : o.kp = .pri sk) (hh : ∃ x, Abs o.hf x ∨ Chk o.hf x) {msg salt sig : Bytes} (hm : msg.length < 2 ^ 64)
    (hb : 8 + size + salt.length < 2 ^ 64) (hl : size + salt.length + 2 ≤ (bitsLen sk.pk.n - 1 + 7) / 8)
    (h : signWithSalt debug g fuel d o msg salt = .ok (o', sig)) :
    0 < sk.pk.n ∧ beNat sig ^ sk.pk.e % sk.pk.n = beNat (pss H size (bitsLen sk.pk.n - 1) salt msg) ∧
      o'.kp = o.kp ∧ o'.slen = o.slen ∧ (∃ x, Abs o'.hf x ∨ Chk o'.hf x) ∧ sig = padTo sk.pk.modulusLen (natBytes (beNat sig)) ∧
      ∃ rd'', sk.decrypt g fuel (beNat (pss H size (bitsLen sk.pk.n - 1) salt msg)) (if o.blinding = true then some o.rd else none) =
        .ok (some (beNat sig : Int), rd'') := by
  obtain ⟨hf', e, ch⟩ := encode_eq L hs debug hh msg (emBits := bitsLen sk.pk.n - 1) (by omega) salt hm hl hb
  unfold signWithSalt at h
  rw [ho] at h
  simp only [bind, Except.bind, KeyPair.publicKey, KeyPair.privateKey, e] at h
  split at h
  · cases h
  · next y hy =>
    obtain ⟨m, rd⟩ := y
    simp only [Except.ok.injEq, Prod.mk.injEq] at h
    obtain ⟨h1, h2⟩ := h
    have hsig : beNat sig = m := by rw [← h2, beNat_padTo, beNat_natBytes]
    obtain ⟨a, b, c⟩ := rawSign_ok hy
    rw [hsig]
    exact ⟨a, b, by rw [← h1]; exact ho.symm, by rw [← h1], by rw [← h1]; exact ch, h2.symm, c⟩

end Verif.Model.PSS

namespace Verif.Model.RSA
open Verif.Spec.RSA

variable {σ : Type}

/-! ## Chinese remaindering with arbitrary values -/

theorem crtTwo_some {p q : Nat} (hp : 0 < p) (hq : 0 < q) (c dp dq i : Nat) :
    ∃ x : Nat, crtTwo c dp dq p q (some i) = some (x : Int) ∧ x < p * q ∧ x ≡ c ^ dq [MOD q] ∧ (q * i ≡ 1 [MOD p] → x ≡ c ^ dp [MOD p]) := by
  have hpz : (0 : Int) < p := by exact_mod_cast hp
  unfold crtTwo
  simp only [BigInt.add, BigInt.mul, BigInt.remEuclid, BigInt.ofNat?]
  generalize ht : (if ((powMod c dp p : Nat) : Int) - ((powMod c dq q : Nat) : Int) < 0 then
    ((powMod c dp p : Nat) : Int) - ((powMod c dq q : Nat) : Int) + (p : Int) else ((powMod c dp p : Nat) : Int) - ((powMod c dq q : Nat) : Int)) = t
  have htm : t ≡ ((powMod c dp p : Nat) : Int) - ((powMod c dq q : Nat) : Int) [ZMOD p] := by rw [← ht]; exact wrap_modEq _ _
  have h0 := Int.emod_nonneg (t * i) hpz.ne'
  have h1 := Int.emod_lt_of_pos (t * i) hpz
  obtain ⟨u, hu⟩ := Int.eq_ofNat_of_zero_le h0
  have hm : powMod c dq q < q := Nat.mod_lt _ hq
  have hup : u < p := by rw [hu] at h1; exact_mod_cast h1
  refine ⟨u * q + powMod c dq q, by rw [hu]; push_cast; rfl, ?_, ?_, ?_⟩
  · calc u * q + powMod c dq q < u * q + q := by omega
      _ = (u + 1) * q := by ring
      _ ≤ p * q := Nat.mul_le_mul_right _ hup
  · have : u * q + powMod c dq q ≡ powMod c dq q [MOD q] := by
      simp [Nat.ModEq]
    exact this.trans (Nat.mod_modEq _ _)
  · intro hi
    have hiz : ((q * i : Nat) : Int) ≡ ((1 : Nat) : Int) [ZMOD p] := Int.natCast_modEq_iff.2 hi
    rw [← Int.natCast_modEq_iff]
    push_cast at hiz ⊢
    have e1 : (u : Int) ≡ t * i [ZMOD p] := by
      have : (u : Int) = t * i % p := hu.symm
      rw [this]; exact Int.mod_modEq _ _
    have e2 : (powMod c dp p : Int) ≡ (c : Int) ^ dp [ZMOD p] := by
      have : powMod c dp p ≡ c ^ dp [MOD p] := Nat.mod_modEq _ _
      have := Int.natCast_modEq_iff.2 this
      push_cast at this
      exact this
    have e3 := (e1.mul_right (q : Int)).add_right (powMod c dq q : Int)
    have e4 : t * i * q + (powMod c dq q : Int) ≡ (powMod c dp p : Int) [ZMOD p] := by
      have a1 : t * i * q ≡ (powMod c dp p : Int) - (powMod c dq q : Int) [ZMOD p] := by
        have := (hiz.mul_left t).trans ((by simpa using htm) : t * 1 ≡ _ [ZMOD p])
        have e : t * ((q : Int) * i) = t * i * q := by ring
        rwa [e] at this
      simpa using a1.add_right (powMod c dq q : Int)
    exact (e3.trans e4).trans e2

theorem crtLoop_lt {c : Nat} (d : Nat) (primes : List Nat) : ∀ (r x : Nat), x < r → (∀ p ∈ primes, 0 < p) → ∀ y,
    crtLoop c (some (x : Int)) (crtValues d r primes) primes = .ok y → ∃ z : Nat, y = some (z : Int) ∧ z < r * primes.prod := by
  induction primes with
  | nil =>
    intro r x hx _ y h
    simp only [crtValues, crtLoop, Except.ok.injEq] at h
    exact ⟨x, h.symm, by simpa using hx⟩
  | cons p ps ih =>
    intro r x hx hp y h
    have hp0 : 0 < p := hp p (by simp)
    have hpz : (0 : Int) < p := by exact_mod_cast hp0
    rw [crtValues, crtLoop] at h
    cases hi : modInv r p with
    | none =>
      rw [hi] at h
      have e : crtStep c (some (x : Int)) ⟨d % (p - 1), none, r⟩ p = .error .panic := rfl
      rw [e] at h
      cases h
    | some i =>
      rw [hi] at h
      unfold crtStep at h
      simp only [BigInt.sub, BigInt.mul, BigInt.ofNat?, BigInt.remEuclid, BigInt.add, bind, Except.bind] at h
      generalize hw : ((((powMod c (d % (p - 1)) p : Nat) : Int) - (x : Int)) * (i : Int)) % (p : Int) = w at h
      have h0 : 0 ≤ w := by rw [← hw]; exact Int.emod_nonneg _ hpz.ne'
      have h1 : w < p := by rw [← hw]; exact Int.emod_lt_of_pos _ hpz
      rw [if_neg (by omega)] at h
      obtain ⟨u, hu⟩ := Int.eq_ofNat_of_zero_le h0
      rw [hu] at h h1
      have hup : u < p := by exact_mod_cast h1
      have e : (x : Int) + (u : Int) * (r : Int) = ((x + u * r : Nat) : Int) := by push_cast; rfl
      rw [e] at h
      have hlt : x + u * r < r * p := by
        calc x + u * r < r + u * r := by omega
          _ = (u + 1) * r := by ring
          _ ≤ p * r := Nat.mul_le_mul_right _ hup
          _ = r * p := Nat.mul_comm _ _
      obtain ⟨z, hz, hzl⟩ := ih (r * p) (x + u * r) hlt (fun p' h' => hp p' (by simp [h'])) y h
      exact ⟨z, hz, by rw [List.prod_cons, ← Nat.mul_assoc]; exact hzl⟩

theorem crtLoop_none {c : Nat} (v : List CRTValue) (primes : List Nat) {y : Int} : crtLoop c none v primes ≠ .ok (some y) := by
  cases v with
  | nil => simp [crtLoop]
  | cons a v =>
    cases primes with
    | nil => simp [crtLoop]
    | cons p ps =>
      rw [crtLoop]
      have e : crtStep c none a p = .error .panic := by
        unfold crtStep
        simp only [BigInt.sub, BigInt.mul, BigInt.remEuclid]
      rw [e]
      exact fun h => by cases h

/-- If the key has the values the crate computes, the private operation stays below the modulus, even if its "primes" are not primes. -/
theorem raw_lt {sk : PrivateKey} (hk : Computed sk) (hp : sk.pk.n = sk.primes.prod) (hn : 0 < sk.pk.n) {c : Nat} {z : Int}
    (h : sk.raw c = .ok (some z)) : ∃ y : Nat, z = y ∧ y < sk.pk.n := by
  unfold PrivateKey.raw at h
  rcases hk with e | ⟨p, q, rest, e1, e2⟩
  · rw [e] at h
    simp only [Precomputed.nan, Except.ok.injEq, Option.some.injEq] at h
    exact ⟨_, h.symm, Nat.mod_lt _ hn⟩
  · have hpos : ∀ x ∈ sk.primes, 0 < x := by
      intro x hx
      rcases Nat.eq_zero_or_pos x with rfl | h0
      · rw [hp, List.prod_eq_zero hx] at hn
        exact absurd hn (Nat.lt_irrefl 0)
      · exact h0
    rw [e1] at h hpos hp
    rw [e2] at h
    simp only [Precomputed.new, Option.getD_some] at h
    have hp0 : 0 < p := hpos p (by simp)
    have hq0 : 0 < q := hpos q (by simp)
    cases hi : modInv q p with
    | none =>
      rw [hi] at h
      have e : crtTwo c (sk.d % (p - 1)) (sk.d % (q - 1)) p q none = none := rfl
      rw [e] at h
      exact absurd h (crtLoop_none _ _)
    | some i =>
      rw [hi] at h
      obtain ⟨x, hx, hl, -⟩ := crtTwo_some hp0 hq0 c (sk.d % (p - 1)) (sk.d % (q - 1)) i
      rw [hx] at h
      obtain ⟨y, hy, hyl⟩ := crtLoop_lt sk.d rest (p * q) x hl (fun p' h' => hpos p' (by simp [h'])) _ h
      refine ⟨y, by simpa using hy, ?_⟩
      rw [hp, List.prod_cons, List.prod_cons, ← Nat.mul_assoc]
      exact hyl

theorem decrypt_lt {g : Rng σ} {fuel : Nat} {sk : PrivateKey} (hk : Computed sk) (hp : sk.pk.n = sk.primes.prod) (hn : 0 < sk.pk.n) {c m : Nat}
    {rd rd' : Option σ} (h : sk.decrypt g fuel c rd = .ok (some (m : Int), rd')) : m < sk.pk.n := by
  unfold PrivateKey.decrypt at h
  split at h
  · cases h
  · rw [if_neg (by omega)] at h
    cases rd with
    | none =>
      simp only [bind, Except.bind] at h
      split at h
      · cases h
      · next v hv =>
        simp only [Except.ok.injEq, Prod.mk.injEq] at h
        rw [h.1] at hv
        obtain ⟨y, hy, hl⟩ := raw_lt hk hp hn hv
        have : m = y := by exact_mod_cast hy
        omega
    | some s =>
      simp only [bind, Except.bind] at h
      split at h
      · cases h
      · next v hv =>
        split at h
        · cases h
        · next w hw =>
          simp only [Except.ok.injEq, Prod.mk.injEq] at h
          cases w with
          | none => cases h.1
          | some w =>
            have h1 := h.1
            simp only [BigInt.mul, BigInt.remEuclid, Option.some.injEq] at h1
            have : ((m : Nat) : Int) < sk.pk.n := by
              rw [← h1]; exact Int.emod_lt_of_pos _ (by exact_mod_cast hn)
            exact_mod_cast this

end Verif.Model.RSA

namespace Verif.Model.RSA
open Verif.Spec.RSA

variable {σ : Type}

/-- If the private operation is right modulo a divisor of the modulus, so is `decrypt`, with or without blinding. -/
theorem decrypt_mod {g : Rng σ} {fuel : Nat} {sk : PrivateKey} {s : Nat} (hs : s ∣ sk.pk.n)
    (hr : ∀ c, ∃ x : Nat, sk.raw c = .ok (some (x : Int)) ∧ x ^ sk.pk.e ≡ c [MOD s]) {c m : Nat} {rd rd' : Option σ}
    (h : sk.decrypt g fuel c rd = .ok (some (m : Int), rd')) : m ^ sk.pk.e ≡ c [MOD s] := by
  unfold PrivateKey.decrypt at h
  split at h
  · cases h
  · split at h
    · cases h
    · next hn =>
      cases rd with
      | none =>
        obtain ⟨x, hx, hm⟩ := hr c
        simp only [bind, Except.bind, hx, Except.ok.injEq, Prod.mk.injEq, Option.some.injEq] at h
        have : x = m := by exact_mod_cast h.1
        rw [← this]; exact hm
      | some t =>
        simp only [bind, Except.bind] at h
        split at h
        · cases h
        · next v hv =>
          obtain ⟨r, ir, t'⟩ := v
          have hinv := (blindLoop_ok hv).of_dvd hs
          obtain ⟨x, hx, hm⟩ := hr (powMod r sk.pk.e sk.pk.n * c % sk.pk.n)
          simp only [hx, BigInt.mul, BigInt.remEuclid, Except.ok.injEq, Prod.mk.injEq, Option.some.injEq] at h
          have e : m = x * ir % sk.pk.n := by
            have := h.1.symm
            exact_mod_cast this
          have e1 : m ≡ x * ir [MOD s] := by rw [e]; exact (Nat.mod_modEq _ _).of_dvd hs
          have e2 : powMod r sk.pk.e sk.pk.n * c % sk.pk.n ≡ r ^ sk.pk.e * c [MOD s] :=
            ((Nat.mod_modEq _ _).trans ((Nat.mod_modEq _ _).mul_right _)).of_dvd hs
          calc m ^ sk.pk.e ≡ (x * ir) ^ sk.pk.e [MOD s] := e1.pow _
            _ = x ^ sk.pk.e * ir ^ sk.pk.e := Nat.mul_pow _ _ _
            _ ≡ r ^ sk.pk.e * c * ir ^ sk.pk.e [MOD s] := (hm.trans e2).mul_right _
            _ = c * (r * ir) ^ sk.pk.e := by rw [Nat.mul_pow]; ring
            _ ≡ c * 1 ^ sk.pk.e [MOD s] := (hinv.pow _).mul_left _
            _ = c := by simp

/-- Right modulo one prime and wrong modulo the product: the difference has exactly that prime in common with the modulus. -/
theorem gcd_fault {p q a c : Nat} (hp : p.Prime) (hq : a ≡ c [MOD q]) (hn : ¬ a ≡ c [MOD p * q]) :
    Nat.gcd (p * q) ((a : Int) - c).natAbs = q := by
  have h1 : q ∣ ((a : Int) - c).natAbs := by
    rw [← Int.natCast_dvd]
    exact (Nat.modEq_iff_dvd.1 hq.symm)
  obtain ⟨w, hw⟩ := h1
  rw [hw, Nat.mul_comm p q, Nat.gcd_mul_left]
  have h2 : Nat.gcd p w = 1 := by
    refine (Nat.Prime.coprime_iff_not_dvd hp).2 (fun hd => hn ?_)
    obtain ⟨v, hv⟩ := hd
    refine (Nat.modEq_iff_dvd.2 ?_).symm
    rw [Int.natCast_dvd, hw, hv]
    exact ⟨v, by ring⟩
  rw [h2, Nat.mul_one]

end Verif.Model.RSA
