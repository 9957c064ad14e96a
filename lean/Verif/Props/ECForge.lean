import Verif.Proof.Malleable
import Verif.Props.ECDSA
import Verif.Props.OAEPText

/-! C131: what protects ECDSA signatures against strangers, and what a per-message secret that became known gives away. -/

namespace Verif.Props
open Verif.Model Verif.Model.RSA Verif.Spec.ECDSA Verif.Spec.Elliptic
open Verif.Model.Elliptic (CurveParams EllipticCurve)
open Verif.Model.ECDSA (Setting)

section
variable {σ S C : Type} {dg : Digest S} {H : Bytes → Bytes} {bs : Option Nat} {size : Nat} {Abs Chk : S → Bytes → Prop}
variable {E : EllipticCurve C} {p n : ℕ} [hpf : Fact p.Prime]

private theorem verify_iff (L : LawfulDigest dg H bs size Abs Chk) (hsz : 0 < size) (o : ECDSA.Obj σ S C) (ho : GoodObj Abs Chk o)
    {G : Point p (E.curveParams o.curve).b} (hS : Setting (E.curveParams o.curve) p n G) (qx qy : ℤ) (d : ℕ) (hk : o.kp.publicKey = ⟨some qx, some qy⟩)
    (hQ : Encodes p (E.curveParams o.curve).b qx qy (d • G)) (c : DSA.SigContent) (msg : Bytes) (hm : msg.length < 2 ^ 64) (r s : ℕ)
    (hc : c.toBigint = .ok (some r, some s)) :
    (∃ o', ECDSA.verify E dg o c msg = .ok o') ↔ Accepts G (d • G) n (hashNumber n (H msg)) r s := by
  obtain ⟨h1, h2⟩ := C53_verify_exact L hsz o ho hS qx qy d hk hQ c msg hm r s hc
  by_cases h : Accepts G (d • G) n (hashNumber n (H msg)) r s
  · obtain ⟨o', h3, -⟩ := h1 h
    exact ⟨fun _ => h, fun _ => ⟨o', h3⟩⟩
  · refine ⟨fun ⟨o', h3⟩ => ?_, fun h3 => absurd h3 h⟩
    rw [h2 h] at h3
    cases h3

/-- C131: a container `(r, s)` is accepted for a message exactly if it belongs to some combination `u • G + v • Q` of the base point and the public key: `r` is
its first coordinate modulo `n`, `s * v = r`, and the hash number of the message is `u * s`. Everybody can choose `u` and `v` and compute `r`, `s` and the hash
number; only a message with this hash number has to be found. -/
theorem C131_made (L : LawfulDigest dg H bs size Abs Chk) (hsz : 0 < size) (o : ECDSA.Obj σ S C) (ho : GoodObj Abs Chk o)
    {G : Point p (E.curveParams o.curve).b} (hS : Setting (E.curveParams o.curve) p n G) (qx qy : ℤ) (d : ℕ) (hk : o.kp.publicKey = ⟨some qx, some qy⟩)
    (hQ : Encodes p (E.curveParams o.curve).b qx qy (d • G)) (c : DSA.SigContent) (msg : Bytes) (hm : msg.length < 2 ^ 64) (r s : ℕ)
    (hc : c.toBigint = .ok (some r, some s)) :
    (∃ o', ECDSA.verify E dg o c msg = .ok o') ↔
      0 < r ∧ 0 < s ∧ s < n ∧ ∃ u v x, xNumber (u • G + v • (d • G)) = some x ∧ r = x % n ∧ s * v ≡ r [MOD n] ∧ hashNumber n (H msg) ≡ u * s [MOD n] := by
  rw [verify_iff L hsz o ho hS qx qy d hk hQ c msg hm r s hc]
  generalize hashNumber n (H msg) = z
  constructor
  · rintro ⟨r0, -, s0, s1, w, -, hw, x, hx, hr⟩
    refine ⟨r0, s0, s1, _, _, x, hx, hr, ?_, ?_⟩
    · refine ((Nat.mod_modEq (r * w) n).mul_left s).trans ?_
      rw [show s * (r * w) = s * w * r by ring]
      exact (hw.mul_right r).trans (by rw [one_mul])
    · refine Nat.ModEq.symm (((Nat.mod_modEq (z * w) n).mul_right s).trans ?_)
      rw [show z * w * s = s * w * z by ring]
      exact (hw.mul_right z).trans (by rw [one_mul])
  · rintro ⟨r0, s0, s1, u, v, x, hx, hr, h1, h2⟩
    have hcop : Nat.Coprime s n := ((Nat.Prime.coprime_iff_not_dvd hS.prime).2 (Nat.not_dvd_of_pos_of_lt s0 s1)).symm
    obtain ⟨w, -, hw⟩ := Nat.exists_mul_mod_eq_one_of_coprime hcop (by have := hS.two_lt; omega)
    have hw' : s * w ≡ 1 [MOD n] := by
      rw [Nat.ModEq, hw, Nat.mod_eq_of_lt (by have := hS.two_lt; omega)]
    refine ECDSA.accepts_of_point hS r0 s0 s1 hw' ?_ hr
    rw [← hx, ← mul_nsmul, ← add_nsmul]
    refine congrArg xNumber (ECDSA.nsmul_congr hS ?_)
    have e : w * (z + d * r) ≡ w * (u * s + d * (s * v)) [MOD n] := (h2.add (h1.symm.mul_left d)).mul_left w
    refine e.trans ?_
    rw [show w * (u * s + d * (s * v)) = s * w * (u + d * v) by ring]
    exact (hw'.mul_right _).trans (by rw [one_mul])

/-- C131: for a message whose hash number is a multiple of `n` no private key is needed: the first coordinate of the public key, taken twice, is accepted. -/
theorem C131_zero (L : LawfulDigest dg H bs size Abs Chk) (hsz : 0 < size) (o : ECDSA.Obj σ S C) (ho : GoodObj Abs Chk o)
    {G : Point p (E.curveParams o.curve).b} (hS : Setting (E.curveParams o.curve) p n G) (qx qy : ℤ) (d : ℕ) (hk : o.kp.publicKey = ⟨some qx, some qy⟩)
    (hQ : Encodes p (E.curveParams o.curve).b qx qy (d • G)) (msg : Bytes) (hm : msg.length < 2 ^ 64) (hz : n ∣ hashNumber n (H msg)) (x : ℕ)
    (hx : xNumber (d • G) = some x) (hr : 0 < x % n) : ∃ o', ECDSA.verify E dg o (.formBigint (x % n : ℕ) (x % n : ℕ)) msg = .ok o' := by
  refine (C131_made L hsz o ho hS qx qy d hk hQ _ msg hm _ _ (C51_roundtrip (x % n) (x % n) hr hr .new).1).2
    ⟨hr, hr, Nat.mod_lt _ hS.prime.pos, 0, 1, x, ?_, rfl, by rw [mul_one], ?_⟩
  · rw [zero_nsmul, one_nsmul, zero_add, hx]
  · rw [zero_mul]; exact (Nat.modEq_zero_iff_dvd).2 hz

/-- C131: whoever knows the per-message secret `k` of an accepted signature knows the private key, up to a sign of `k`: it solves one of two linear congruences
whose coefficients are known, and `r` is invertible. -/
theorem C131_known_secret (L : LawfulDigest dg H bs size Abs Chk) (hsz : 0 < size) (o : ECDSA.Obj σ S C) (ho : GoodObj Abs Chk o)
    {G : Point p (E.curveParams o.curve).b} (hS : Setting (E.curveParams o.curve) p n G) (qx qy : ℤ) (d : ℕ) (hk : o.kp.publicKey = ⟨some qx, some qy⟩)
    (hQ : Encodes p (E.curveParams o.curve).b qx qy (d • G)) (c : DSA.SigContent) (msg : Bytes) (hm : msg.length < 2 ^ 64) (r s : ℕ)
    (hc : c.toBigint = .ok (some r, some s)) (hp : p ≤ r + n) (h : ∃ o', ECDSA.verify E dg o c msg = .ok o') (k x : ℕ) (hx : xNumber (k • G) = some x)
    (hr : r = x % n) :
    Nat.Coprime r n ∧
      ((d : ℤ) * r ≡ s * k - hashNumber n (H msg) [ZMOD n] ∨ (d : ℤ) * r ≡ -(s * k) - hashNumber n (H msg) [ZMOD n]) := by
  have a := (verify_iff L hsz o ho hS qx qy d hk hQ c msg hm r s hc).1 h
  generalize hashNumber n (H msg) = z at *
  obtain ⟨w, x', hw, hx', hr'⟩ := ECDSA.accepts_point hS a
  obtain ⟨r0, r1, -⟩ := a
  refine ⟨((Nat.Prime.coprime_iff_not_dvd hS.prime).2 (Nat.not_dvd_of_pos_of_lt r0 r1)).symm, ?_⟩
  have u : ∀ y, y < p → r = y % n → y = r := by
    intro y h1 h2
    have h3 : y < r + n := lt_of_lt_of_le h1 hp
    have h4 := Nat.div_add_mod y n
    rcases Nat.eq_zero_or_pos (y / n) with h5 | h5
    · rw [h5, Nat.mul_zero] at h4; omega
    · have : n ≤ n * (y / n) := Nat.le_mul_of_pos_right n h5
      omega
  rw [u x (ECDSA.xNumber_lt hx) hr] at hx
  rw [u x' (ECDSA.xNumber_lt hx') hr'] at hx'
  have k1 : s * (w * (z + d * r)) ≡ z + d * r [MOD n] := by
    rw [show s * (w * (z + d * r)) = s * w * (z + d * r) by ring]
    exact (hw.mul_right _).trans (by rw [one_mul])
  rcases ECDSA.eq_or_neg_of_xNumber hx' hx with h3 | h3
  · have h4 := nsmul_eq_nsmul_iff_modEq.1 h3
    rw [hS.order] at h4
    have h5 := Int.natCast_modEq_iff.2 (k1.symm.trans (h4.mul_left s))
    push_cast at h5
    left
    rw [Int.modEq_iff_dvd] at h5 ⊢
    rw [show (s : ℤ) * k - z - d * r = s * k - (z + d * r) by ring]
    exact h5
  · rw [eq_neg_iff_add_eq_zero, ← add_nsmul] at h3
    have h4 := addOrderOf_dvd_iff_nsmul_eq_zero.2 h3
    rw [hS.order] at h4
    have h5 : s * (w * (z + d * r) + k) ≡ 0 [MOD n] := (Nat.modEq_zero_iff_dvd).2 (h4.mul_left _)
    rw [Nat.mul_add] at h5
    have h6 := Int.natCast_modEq_iff.2 ((k1.symm.add_right (s * k)).trans h5)
    push_cast at h6
    right
    rw [Int.modEq_iff_dvd] at h6 ⊢
    rw [show -((s : ℤ) * k) - z - d * r = 0 - (z + d * r + s * k) by ring]
    exact h6

end

/-- The signature of `C53_demo` is accepted, so that it belongs to some `u` and `v`. -/
example : ∃ (p n r s : ℕ) (_ : Fact p.Prime) (G : Point p Elliptic.p256.b) (u v x : ℕ), Elliptic.p256.n = n ∧ 0 < r ∧ 0 < s ∧ s < n ∧
    xNumber (u • G + v • (1 • G)) = some x ∧ r = x % n ∧ s * v ≡ r [MOD n] ∧ hashNumber n (Spec.SHA.sha256 []) ≡ u * s [MOD n] := by
  obtain ⟨o', c, v, h1, h2, s0, hs0, hc⟩ := C53_demo
  obtain ⟨p', n', hpf', G, hS⟩ := setting_of_good C55_p256 (by decide +kernel)
  have hg : GoodObj (MD.Abs SHA2.params256 SHA2.init256) (MD.Chk (fun q => (SHA2.out256 q).take 32) Spec.SHA.sha256) demoECDSA := C53_new _ good256 _ _ _
  have hQ : Encodes p' Elliptic.p256.b Elliptic.p256.gx Elliptic.p256.gy (1 • G) := by rw [one_nsmul]; exact hS.base
  have hb := (C51_roundtrip 78537145824710306775404677570620104876738892918257760501233647430962192040503 s0 (by decide) hs0 .new).1
  rw [hc] at h2
  obtain ⟨r0, s0', s1, u, v', x, hx⟩ := (C131_made (E := Elliptic.generic) SHA2.law256 (by decide) demoECDSA hg hS _ _ 1 rfl hQ _ [] (by decide) _ _ hb).1 ⟨v, h2⟩
  exact ⟨p', n', _, s0, hpf', G, u, v', x, hS.n_eq, r0, s0', s1, hx⟩

/-- With the hash function of one byte of C97 there is a message with the hash number 0. The first coordinate of the public key is accepted for it, twice. -/
example : ∃ (x : ℕ) (v : _), 0 < x ∧ (x : ℤ) = Elliptic.p256.gx % Elliptic.p256.n ∧ ECDSA.verify Elliptic.generic toyDigest
    (ECDSA.newUncheck ([] : Bytes) () Elliptic.p256 (.pub ⟨some Elliptic.p256.gx, some Elliptic.p256.gy⟩)) (.formBigint x x) [4, 10] = .ok v := by
  obtain ⟨p', n', hpf', G, hS⟩ := setting_of_good C55_p256 (by decide +kernel)
  have hg : GoodObj (fun s m => s = m) (fun s m => s = m) (ECDSA.newUncheck ([] : Bytes) () Elliptic.p256 (.pub ⟨some Elliptic.p256.gx, some Elliptic.p256.gy⟩)) :=
    C53_new _ ⟨[], Or.inl rfl⟩ _ _ _
  have hQ : Encodes p' Elliptic.p256.b Elliptic.p256.gx Elliptic.p256.gy (1 • G) := by rw [one_nsmul]; exact hS.base
  have hz : toyHash [4, 10] = [0] := by decide
  have hp' : (p' : ℤ) = Elliptic.p256.p := hS.p_eq.symm
  have hn' : (n' : ℤ) = Elliptic.p256.n := hS.n_eq.symm
  obtain ⟨x, hx, hxe⟩ : ∃ x : ℕ, xNumber (1 • G) = some x ∧ (x : ℤ) = Elliptic.p256.gx % p' := by
    rcases hQ with ⟨h0, -, -⟩ | ⟨h1, h2⟩
    · exact absurd h0 (by decide +kernel)
    · exact ⟨_, by rw [h2]; rfl, ZMod.val_intCast _⟩
  have hm : ((x % n' : ℕ) : ℤ) = Elliptic.p256.gx % Elliptic.p256.n := by
    push_cast
    rw [hxe, hp', hn']
    decide +kernel
  have h0 : 0 < x % n' := by
    have : (0 : ℤ) < Elliptic.p256.gx % Elliptic.p256.n := by decide +kernel
    rw [← hm] at this
    exact_mod_cast this
  obtain ⟨v, hv⟩ := C131_zero (E := Elliptic.generic) toyDigest_lawful (by decide) _ hg hS _ _ 1 rfl hQ [4, 10] (by decide) (by rw [hz]; simp [hashNumber, beNat]) x hx h0
  exact ⟨x % n', v, h0, hm, hv⟩

/-- The signature of `C53_demo` and its secret meet the hypotheses of `C131_known_secret`. -/
example : ∃ (p n r s k : ℕ) (_ : Fact p.Prime) (G : Point p Elliptic.p256.b) (x : ℕ) (v : _), Elliptic.p256.p = p ∧ Elliptic.p256.n = n ∧ p ≤ r + n ∧
    ECDSA.verify Elliptic.generic SHA2.sha256 demoECDSA (.formBigint r s) [] = .ok v ∧ xNumber (k • G) = some x ∧ r = x % n := by
  obtain ⟨o', c, v, h1, h2, s0, hs0, hc⟩ := C53_demo
  obtain ⟨p', n', hpf', G, hS⟩ := setting_of_good C55_p256 (by decide +kernel)
  have hE : BaseOk Elliptic.generic Elliptic.p256 n' := fun k _ _ => rfl
  have hg : GoodObj (MD.Abs SHA2.params256 SHA2.init256) (MD.Chk (fun q => (SHA2.out256 q).take 32) Spec.SHA.sha256) demoECDSA := C53_new _ good256 _ _ _
  have hl : (natBytes 1).length + 32 < 2 ^ 63 := by rw [natBytes_one]; decide
  have hQ : Encodes p' Elliptic.p256.b Elliptic.p256.gx Elliptic.p256.gy (1 • G) := by rw [one_nsmul]; exact hS.base
  rcases C67_sign SHA2.law256 (by decide) wordRng 1 demoECDSA hg hS hE _ 1 rfl .new [] (by decide) hl with ⟨o2, i, r, s, -, hsig, -, h4, -⟩ | ⟨-, h4⟩
  · rw [h1] at h4
    obtain ⟨-, e⟩ := Prod.mk.inj (Except.ok.inj h4)
    have e' : c = DSA.SigContent.formBigint r s := e
    rw [e'] at h1 h2
    obtain ⟨x, hx, hrx⟩ := hsig.r_eq
    refine ⟨p', n', r, s, _, hpf', G, x, v, hS.p_eq, hS.n_eq, ?_, h2, hx, hrx⟩
    have hr : r = 78537145824710306775404677570620104876738892918257760501233647430962192040503 := by
      rw [e'] at hc
      have hx := congrArg DSA.SigContent.toBigint hc
      rw [(C51_roundtrip r s hsig.r_pos hsig.s_pos .new).1] at hx
      rw [(C51_roundtrip _ s0 (by decide) hs0 .new).1] at hx
      exact Option.some.inj (Prod.mk.inj (Except.ok.inj hx)).1
    have hp' : (p' : ℤ) = Elliptic.p256.p := hS.p_eq.symm
    have hn' : (n' : ℤ) = Elliptic.p256.n := hS.n_eq.symm
    have : Elliptic.p256.p ≤ 78537145824710306775404677570620104876738892918257760501233647430962192040503 + Elliptic.p256.n := by decide +kernel
    rw [hr]
    rw [← hp', ← hn'] at this
    exact_mod_cast this
  · rw [h1] at h4
    cases h4

end Verif.Props
