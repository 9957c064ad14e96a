import Verif.Proof.Malleable
import Verif.Props.ECDSA

/-! Property C86 (what an ECDSA signature binds, and what it does not) -/

namespace Verif.Props
open Verif.Model Verif.Model.RSA Verif.Spec.ECDSA Verif.Spec.Elliptic
open Verif.Model.Elliptic (CurveParams EllipticCurve)
open Verif.Model.ECDSA (Setting)

section
variable {σ S C : Type} {dg : Digest S} {H : Bytes → Bytes} {bs : Option Nat} {size : Nat} {Abs Chk : S → Bytes → Prop}
variable {E : EllipticCurve C} {p n : ℕ} [hpf : Fact p.Prime]

/-- Acceptance of a container, from `C53_verify_exact`. -/
private theorem verify_iff (L : LawfulDigest dg H bs size Abs Chk) (hsz : 0 < size) (o : ECDSA.Obj σ S C) (ho : GoodObj Abs Chk o)
    {G : Point p (E.curveParams o.curve).b} (hS : Setting (E.curveParams o.curve) p n G) (qx qy : ℤ) (d : ℕ) (hk : o.kp.publicKey = ⟨some qx, some qy⟩)
    (hQ : Encodes p (E.curveParams o.curve).b qx qy (d • G)) (c : DSA.SigContent) (msg : Bytes) (hm : msg.length < 2 ^ 64) (r s : ℕ)
    (hc : c.toBigint = .ok (some r, some s)) :
    (∃ o', ECDSA.verify E dg o c msg = .ok o') ↔ Accepts G (d • G) n (hashNumber n (H msg)) r s := by
  obtain ⟨h1, h2⟩ := C53_verify_exact L hsz o ho hS qx qy d hk hQ c msg hm r s hc
  by_cases h : Accepts G (d • G) n (hashNumber n (H msg)) r s
  · obtain ⟨o', h3, -⟩ := h1 h
    exact ⟨fun _ => h, fun _ => ⟨o', h3⟩⟩
  · refine ⟨fun ⟨o', h3⟩ => ?_, fun h3 => absurd h3 h⟩
    rw [h2 h] at h3
    cases h3

/-- C86: signatures come in pairs. Whoever has the container of a signature `(r, s)` can make another one, with `(r, n - s)`, without any key: `verify`
accepts one exactly if it accepts the other, for every key, message, curve and hash, and they are never the same. -/
theorem C86_twin (L : LawfulDigest dg H bs size Abs Chk) (hsz : 0 < size) (o : ECDSA.Obj σ S C) (ho : GoodObj Abs Chk o)
    {G : Point p (E.curveParams o.curve).b} (hS : Setting (E.curveParams o.curve) p n G) (qx qy : ℤ) (d : ℕ) (hk : o.kp.publicKey = ⟨some qx, some qy⟩)
    (hQ : Encodes p (E.curveParams o.curve).b qx qy (d • G)) (msg : Bytes) (hm : msg.length < 2 ^ 64) (r s : ℕ) (hr : 0 < r) (hs : 0 < s) (hs' : s < n) :
    ((∃ o', ECDSA.verify E dg o (.formBigint r s) msg = .ok o') ↔ ∃ o', ECDSA.verify E dg o (.formBigint r (n - s)) msg = .ok o') ∧
    DSA.SigContent.formBigint r s ≠ DSA.SigContent.formBigint r (n - s) := by
  have hs2 : 0 < n - s := by omega
  refine ⟨?_, fun h => ?_⟩
  · rw [verify_iff L hsz o ho hS qx qy d hk hQ _ msg hm r s (C51_roundtrip r s hr hs .new).1,
      verify_iff L hsz o ho hS qx qy d hk hQ _ msg hm r (n - s) (C51_roundtrip r (n - s) hr hs2 .new).1]
    refine ⟨ECDSA.accepts_neg hS, fun h => ?_⟩
    have := ECDSA.accepts_neg hS h
    rwa [show n - (n - s) = s by omega] at this
  · have h2 := (C51_injective r s r (n - s) hr hs hr hs2 h).2
    have h3 : 2 ∣ n := ⟨s, by omega⟩
    have h4 := (Nat.prime_dvd_prime_iff_eq Nat.prime_two hS.prime).1 h3
    have := hS.two_lt
    omega

/-- C86: these two are all signatures of the message with this first number. (`p ≤ r + n` excludes that two different points have the same `r`; it
holds for all but about one in 2^128 of the possible `r` of P-256, and similarly for the other curves.) -/
theorem C86_pair (L : LawfulDigest dg H bs size Abs Chk) (hsz : 0 < size) (o : ECDSA.Obj σ S C) (ho : GoodObj Abs Chk o)
    {G : Point p (E.curveParams o.curve).b} (hS : Setting (E.curveParams o.curve) p n G) (qx qy : ℤ) (d : ℕ) (hk : o.kp.publicKey = ⟨some qx, some qy⟩)
    (hQ : Encodes p (E.curveParams o.curve).b qx qy (d • G)) (msg : Bytes) (hm : msg.length < 2 ^ 64) (r s s' : ℕ) (hp : p ≤ r + n) (c c' : DSA.SigContent)
    (hc : c.toBigint = .ok (some r, some s)) (hc' : c'.toBigint = .ok (some r, some s'))
    (h : ∃ o', ECDSA.verify E dg o c msg = .ok o') (h' : ∃ o', ECDSA.verify E dg o c' msg = .ok o') : s' = s ∨ s' = n - s := by
  have a := (verify_iff L hsz o ho hS qx qy d hk hQ c msg hm r s hc).1 h
  have a' := (verify_iff L hsz o ho hS qx qy d hk hQ c' msg hm r s' hc').1 h'
  have hne := ECDSA.accepts_ne hS a
  have hcop : Nat.Coprime n (hashNumber n (H msg) + d * r) := (Nat.Prime.coprime_iff_not_dvd hS.prime).2 hne
  obtain ⟨-, -, s0, s1, -⟩ := id a
  obtain ⟨-, -, t0, t1, -⟩ := id a'
  rcases ECDSA.accepts_same_r hS hp a a' with e | e
  · left
    have e2 := Nat.ModEq.cancel_right_of_coprime (by simpa using hcop) e
    exact Nat.ModEq.eq_of_lt_of_lt e2 t1 s1
  · right
    rw [← Nat.add_mul, Nat.modEq_zero_iff_dvd] at e
    obtain ⟨q, hq⟩ := hcop.dvd_of_dvd_mul_right e
    have h1 : q = 1 := by
      rcases q with _ | _ | q
      · omega
      · rfl
      · rw [Nat.mul_add, Nat.mul_add] at hq
        have : 0 ≤ n * q := Nat.zero_le _
        omega
    rw [h1] at hq
    omega

/-- C86: `verify` depends on the message only through the leftmost bits of its hash, as many as the order of the base point has. -/
theorem C86_hash (L : LawfulDigest dg H bs size Abs Chk) (hsz : 0 < size) (o : ECDSA.Obj σ S C) (ho : GoodObj Abs Chk o)
    {G : Point p (E.curveParams o.curve).b} (hS : Setting (E.curveParams o.curve) p n G) (qx qy : ℤ) (d : ℕ) (hk : o.kp.publicKey = ⟨some qx, some qy⟩)
    (hQ : Encodes p (E.curveParams o.curve).b qx qy (d • G)) (c : DSA.SigContent) (msg msg' : Bytes) (hm : msg.length < 2 ^ 64) (hm' : msg'.length < 2 ^ 64)
    (r s : ℕ) (hc : c.toBigint = .ok (some r, some s)) (hz : hashNumber n (H msg) = hashNumber n (H msg')) :
    (∃ o', ECDSA.verify E dg o c msg = .ok o') ↔ ∃ o', ECDSA.verify E dg o c msg' = .ok o' := by
  rw [verify_iff L hsz o ho hS qx qy d hk hQ c msg hm r s hc, verify_iff L hsz o ho hS qx qy d hk hQ c msg' hm' r s hc, hz]

/-- C86: a signature fits at most two hash numbers modulo `n`: if it is accepted with one key for two messages, their hash numbers agree modulo `n` or
the second is the one determined by the first, `r` and the private key. -/
theorem C86_messages (L : LawfulDigest dg H bs size Abs Chk) (hsz : 0 < size) (o : ECDSA.Obj σ S C) (ho : GoodObj Abs Chk o)
    {G : Point p (E.curveParams o.curve).b} (hS : Setting (E.curveParams o.curve) p n G) (qx qy : ℤ) (d : ℕ) (hk : o.kp.publicKey = ⟨some qx, some qy⟩)
    (hQ : Encodes p (E.curveParams o.curve).b qx qy (d • G)) (c : DSA.SigContent) (msg msg' : Bytes) (hm : msg.length < 2 ^ 64) (hm' : msg'.length < 2 ^ 64)
    (r s : ℕ) (hc : c.toBigint = .ok (some r, some s)) (hp : p ≤ r + n)
    (h : ∃ o', ECDSA.verify E dg o c msg = .ok o') (h' : ∃ o', ECDSA.verify E dg o c msg' = .ok o') :
    hashNumber n (H msg) ≡ hashNumber n (H msg') [MOD n] ∨ hashNumber n (H msg) + hashNumber n (H msg') + 2 * d * r ≡ 0 [MOD n] := by
  have a := (verify_iff L hsz o ho hS qx qy d hk hQ c msg hm r s hc).1 h
  have a' := (verify_iff L hsz o ho hS qx qy d hk hQ c msg' hm' r s hc).1 h'
  have hcop : Nat.Coprime n s := (Nat.Prime.coprime_iff_not_dvd hS.prime).2 fun hd => absurd (Nat.le_of_dvd a.2.2.1 hd) (by have := a.2.2.2.1; omega)
  rcases ECDSA.accepts_same_r hS hp a a' with e | e
  · left
    have e2 := Nat.ModEq.cancel_left_of_coprime (by simpa using hcop) e
    exact Nat.ModEq.add_right_cancel' _ e2
  · right
    rw [← Nat.mul_add, Nat.modEq_zero_iff_dvd] at e
    rw [Nat.modEq_zero_iff_dvd]
    refine (hcop.dvd_of_dvd_mul_left e).trans (dvd_of_eq (by ring))

/-- C86: a signature of a message fits at most two keys: if two objects with public keys `d • G` and `d' • G` on the same curve accept it, the keys are the
same or the second is the one determined by the first, `r` and the hash number. -/
theorem C86_keys (L : LawfulDigest dg H bs size Abs Chk) (hsz : 0 < size) (o o' : ECDSA.Obj σ S C) (ho : GoodObj Abs Chk o) (ho' : GoodObj Abs Chk o')
    (cv : C) (hcv : o.curve = cv) (hcv' : o'.curve = cv) {G : Point p (E.curveParams cv).b} (hS : Setting (E.curveParams cv) p n G)
    (qx qy qx' qy' : ℤ) (d d' : ℕ) (hk : o.kp.publicKey = ⟨some qx, some qy⟩) (hQ : Encodes p (E.curveParams cv).b qx qy (d • G))
    (hk' : o'.kp.publicKey = ⟨some qx', some qy'⟩) (hQ' : Encodes p (E.curveParams cv).b qx' qy' (d' • G)) (c : DSA.SigContent) (msg : Bytes)
    (hm : msg.length < 2 ^ 64) (r s : ℕ) (hc : c.toBigint = .ok (some r, some s)) (hp : p ≤ r + n)
    (h : ∃ v, ECDSA.verify E dg o c msg = .ok v) (h' : ∃ v, ECDSA.verify E dg o' c msg = .ok v) :
    d • G = d' • G ∨ 2 * hashNumber n (H msg) + (d + d') * r ≡ 0 [MOD n] := by
  have a : Accepts G (d • G) n (hashNumber n (H msg)) r s := by
    subst hcv; exact (verify_iff L hsz o ho hS qx qy d hk hQ c msg hm r s hc).1 h
  have a' : Accepts G (d' • G) n (hashNumber n (H msg)) r s := by
    subst hcv'; exact (verify_iff L hsz o' ho' hS qx' qy' d' hk' hQ' c msg hm r s hc).1 h'
  have cop : ∀ m, 0 < m → m < n → Nat.Coprime n m := fun m h0 h1 =>
    (Nat.Prime.coprime_iff_not_dvd hS.prime).2 fun hd => absurd (Nat.le_of_dvd h0 hd) (by omega)
  have hcs := cop s a.2.2.1 a.2.2.2.1
  have hcr := cop r a.1 a.2.1
  rcases ECDSA.accepts_same_r hS hp a a' with e | e
  · left
    have e2 := Nat.ModEq.add_left_cancel' _ (Nat.ModEq.cancel_left_of_coprime (by simpa using hcs) e)
    exact ECDSA.nsmul_congr hS (Nat.ModEq.cancel_right_of_coprime (by simpa using hcr) e2)
  · right
    rw [← Nat.mul_add, Nat.modEq_zero_iff_dvd] at e
    rw [Nat.modEq_zero_iff_dvd]
    refine (hcs.dvd_of_dvd_mul_left e).trans (dvd_of_eq (by ring))

/-- C86: two accepted signatures with the same first number and key give the key away: the private key solves one of two linear congruences whose
coefficients are public. `sign` therefore must not use a secret twice for different messages (see C67 for the secrets). -/
theorem C86_reuse (L : LawfulDigest dg H bs size Abs Chk) (hsz : 0 < size) (o : ECDSA.Obj σ S C) (ho : GoodObj Abs Chk o)
    {G : Point p (E.curveParams o.curve).b} (hS : Setting (E.curveParams o.curve) p n G) (qx qy : ℤ) (d : ℕ) (hk : o.kp.publicKey = ⟨some qx, some qy⟩)
    (hQ : Encodes p (E.curveParams o.curve).b qx qy (d • G)) (c c' : DSA.SigContent) (msg msg' : Bytes) (hm : msg.length < 2 ^ 64) (hm' : msg'.length < 2 ^ 64)
    (r s s' : ℕ) (hc : c.toBigint = .ok (some r, some s)) (hc' : c'.toBigint = .ok (some r, some s')) (hp : p ≤ r + n)
    (h : ∃ o', ECDSA.verify E dg o c msg = .ok o') (h' : ∃ o', ECDSA.verify E dg o c' msg' = .ok o') :
    ((d : ℤ) * (r * (s' - s)) ≡ s * hashNumber n (H msg') - s' * hashNumber n (H msg) [ZMOD n]) ∨
    ((d : ℤ) * (r * (s' + s)) ≡ -(s * hashNumber n (H msg')) - s' * hashNumber n (H msg) [ZMOD n]) := by
  have a := (verify_iff L hsz o ho hS qx qy d hk hQ c msg hm r s hc).1 h
  have a' := (verify_iff L hsz o ho hS qx qy d hk hQ c' msg' hm' r s' hc').1 h'
  rcases ECDSA.accepts_same_r hS hp a a' with e | e
  · left
    rw [← Int.natCast_modEq_iff, Int.modEq_iff_dvd] at e
    rw [Int.modEq_iff_dvd]
    obtain ⟨q, hq⟩ := e
    refine ⟨q, ?_⟩
    rw [← hq]; push_cast; ring
  · right
    rw [← Int.natCast_modEq_iff, Int.modEq_iff_dvd] at e
    rw [Int.modEq_iff_dvd]
    obtain ⟨q, hq⟩ := e
    refine ⟨q, ?_⟩
    rw [← hq]; push_cast; ring

end

/-- The hypotheses of the theorems above are met by the signature of `C53_demo`: it is accepted, its twin is accepted as well, and its first number
satisfies `p ≤ r + n`. -/
example : ∃ (p n r s : ℕ) (o' v v' : _), 0 < s ∧ s < n ∧ Elliptic.p256.p = p ∧ Elliptic.p256.n = n ∧ p ≤ r + n ∧
    ECDSA.sign wordRng Elliptic.generic 1 SHA2.sha256 demoECDSA .new [] = .ok (o', .formBigint r s) ∧
    ECDSA.verify Elliptic.generic SHA2.sha256 demoECDSA (.formBigint r s) [] = .ok v ∧
    ECDSA.verify Elliptic.generic SHA2.sha256 demoECDSA (.formBigint r (n - s)) [] = .ok v' := by
  obtain ⟨o', c, v, h1, h2, s0, hs0, hc⟩ := C53_demo
  obtain ⟨p', n', hpf', G, hS⟩ := setting_of_good C55_p256 (by decide +kernel)
  have hE : BaseOk Elliptic.generic Elliptic.p256 n' := fun k _ _ => rfl
  have hg : GoodObj (MD.Abs SHA2.params256 SHA2.init256) (MD.Chk (fun q => (SHA2.out256 q).take 32) Spec.SHA.sha256) demoECDSA := C53_new _ good256 _ _ _
  have hl : (natBytes 1).length + 32 < 2 ^ 63 := by rw [natBytes_one]; decide
  have hQ : Encodes p' Elliptic.p256.b Elliptic.p256.gx Elliptic.p256.gy (1 • G) := by rw [one_nsmul]; exact hS.base
  rcases C67_sign SHA2.law256 (by decide) wordRng 1 demoECDSA hg hS hE _ 1 rfl .new [] (by decide) hl with ⟨o2, i, r, s, -, hsig, -, h4, -⟩ | ⟨-, h4⟩
  · rw [h1] at h4
    obtain ⟨-, e⟩ := Prod.mk.inj (Except.ok.inj h4)
    have e' : c = DSA.SigContent.formBigint r s := e
    obtain ⟨t1, t2⟩ := C86_twin (E := Elliptic.generic) SHA2.law256 (by decide) demoECDSA hg hS _ _ 1 rfl hQ [] (by decide) r s hsig.r_pos hsig.s_pos hsig.s_lt
    rw [e'] at h1 h2
    obtain ⟨v', h5⟩ := t1.1 ⟨v, h2⟩
    refine ⟨p', n', r, s, o', v, v', hsig.s_pos, hsig.s_lt, hS.p_eq, hS.n_eq, ?_, h1, h2, h5⟩
    have hr : r = 78537145824710306775404677570620104876738892918257760501233647430962192040503 := by
      rw [e'] at hc
      have hx := congrArg DSA.SigContent.toBigint hc
      rw [(C51_roundtrip r s hsig.r_pos hsig.s_pos .new).1] at hx
      rw [(C51_roundtrip _ s0 (by decide) hs0 .new).1] at hx
      exact Option.some.inj (Prod.mk.inj (Except.ok.inj hx)).1
    have hp' : (p' : ℤ) = Elliptic.p256.p := hS.p_eq.symm
    have hn' : (n' : ℤ) = Elliptic.p256.n := hS.n_eq.symm
    have : Elliptic.p256.p ≤ 78537145824710306775404677570620104876738892918257760501233647430962192040503 + Elliptic.p256.n := by decide +kernel
    rw [hr]
    rw [← hp', ← hn'] at this
    exact_mod_cast this
  · rw [h1] at h4
    cases h4

end Verif.Props
