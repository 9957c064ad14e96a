import Verif.Proof.ReceivedKey
import Verif.Props.CurveOrder
import Verif.Props.DSALeak
import Verif.Props.ECDSA

/-! Property C105: what an accepted signature says when the public key came from someone else -/

namespace Verif.Props
open Verif.Model Verif.Model.RSA Verif.Spec.Elliptic
open Verif.Model.Elliptic (CurveParams EllipticCurve)
open Verif.Model.ECDSA (Setting)
open Verif.Spec.ECDSA (hashNumber xNumber)

section
variable {σ S C : Type} {dg : Digest S} {H : Bytes → Bytes} {bs : Option Nat} {size : Nat} {Abs Chk : S → Bytes → Prop}

/-! ## ECDSA -/

section
variable {E : EllipticCurve C} {cv : C} {p n : ℕ} [hpf : Fact p.Prime] {G : Point p (E.curveParams cv).b}

/-- Acceptance of a container, from `C53_verify_exact`. -/
theorem ecdsa_verify_iff (L : LawfulDigest dg H bs size Abs Chk) (hsz : 0 < size) (o : ECDSA.Obj σ S C) (ho : GoodObj Abs Chk o) (hcv : o.curve = cv)
    (hS : Setting (E.curveParams cv) p n G) (qx qy : ℤ) (d : ℕ) (hk : o.kp.publicKey = ⟨some qx, some qy⟩)
    (hQ : Encodes p (E.curveParams cv).b qx qy (d • G)) (c : DSA.SigContent) (msg : Bytes) (hm : msg.length < 2 ^ 64) (r s : ℕ)
    (hc : c.toBigint = .ok (some r, some s)) :
    (∃ o', ECDSA.verify E dg o c msg = .ok o') ↔ Spec.ECDSA.Accepts G (d • G) n (hashNumber n (H msg)) r s := by
  subst hcv
  obtain ⟨h1, h2⟩ := C53_verify_exact L hsz o ho hS qx qy d hk hQ c msg hm r s hc
  by_cases h : Spec.ECDSA.Accepts G (d • G) n (hashNumber n (H msg)) r s
  · obtain ⟨o', h3, -⟩ := h1 h
    exact ⟨fun _ => h, fun _ => ⟨o', h3⟩⟩
  · refine ⟨fun ⟨o', h3⟩ => ?_, fun h3 => absurd h3 h⟩
    rw [h2 h] at h3
    cases h3

/-- C105, false as stated: `(0, 0)` is accepted as a public key, and then everybody can sign every message: for every number `k` the first number `r` is the
first coordinate of `k * G` modulo `n` and the second is `z * k⁻¹`, where `z` is the hash number (not a multiple of `n`). No secret is used. -/
theorem C105_ecdsa_infinity_refuted (L : LawfulDigest dg H bs size Abs Chk) (hsz : 0 < size) (hS : Setting (E.curveParams cv) p n G) (hf : S)
    (hh : GoodState Abs Chk hf) (rd : σ) (msg : Bytes) (hm : msg.length < 2 ^ 64) (hz : ¬ n ∣ hashNumber n (H msg)) (k x : ℕ) (hk0 : 0 < k) (hk1 : k < n)
    (hx : xNumber (k • G) = some x) (hr : 0 < x % n) :
    ∃ o', ECDSA.verify E dg (ECDSA.newUncheck hf rd cv (.pub ⟨some 0, some 0⟩))
      (.formBigint (x % n) (hashNumber n (H msg) * k ^ (n - 2) % n)) msg = .ok o' := by
  have hnk : ¬ n ∣ k := fun hd => absurd (Nat.le_of_dvd hk0 hd) (by omega)
  have hi := ECDSA.inv_spec hS.prime hnk
  have hs : 0 < hashNumber n (H msg) * k ^ (n - 2) % n := by
    refine Nat.pos_of_ne_zero fun h0 => ?_
    rcases (Nat.Prime.dvd_mul hS.prime).1 (Nat.dvd_of_mod_eq_zero h0) with h | h
    · exact hz h
    · exact hnk (hS.prime.dvd_of_dvd_pow h)
  have hsig : Spec.ECDSA.IsSignature G n 0 (hashNumber n (H msg)) k (x % n) (hashNumber n (H msg) * k ^ (n - 2) % n) := by
    refine ⟨hk0, hk1, hr, hs, Nat.mod_lt _ hS.prime.pos, ⟨x, hx, rfl⟩, ?_⟩
    rw [Nat.zero_mul, Nat.add_zero]
    have h1 : hashNumber n (H msg) * k ^ (n - 2) % n * k ≡ hashNumber n (H msg) * k ^ (n - 2) * k [MOD n] := (Nat.mod_modEq _ _).mul_right k
    rw [show hashNumber n (H msg) * k ^ (n - 2) * k = hashNumber n (H msg) * (k * k ^ (n - 2)) by ring] at h1
    have h2 := hi.mul_left (hashNumber n (H msg))
    rw [Nat.mul_one] at h2
    exact h1.trans h2
  exact (ecdsa_verify_iff L hsz _ (C53_new hf hh rd cv _) rfl hS 0 0 0 rfl (Or.inl ⟨rfl, rfl, zero_nsmul G⟩) _ msg hm _ _
    (C51_roundtrip _ _ hr hs .new).1).2 (ECDSA.accepts_of hS hsig)

/-- C105, false as stated: the same with the public key `(3, 0)`, which is not `(0, 0)` and need not be on the curve. For every `k`, one of the pairs
`(r, z * k⁻¹)` and `(r, n - z * k⁻¹)` is accepted. -/
theorem C105_ecdsa_off_curve_refuted (L : LawfulDigest dg H bs size Abs Chk) (hsz : 0 < size) (hS : Setting (E.curveParams cv) p n G) (hp : 5 < p) (hf : S)
    (hh : GoodState Abs Chk hf) (rd : σ) (msg : Bytes) (hm : msg.length < 2 ^ 64) (hz : ¬ n ∣ hashNumber n (H msg)) (k x : ℕ) (hk0 : 0 < k) (hk1 : k < n)
    (hx : xNumber (k • G) = some x) (hr : 0 < x % n) :
    (∃ o', ECDSA.verify E dg (ECDSA.newUncheck hf rd cv (.pub ⟨some 3, some 0⟩))
      (.formBigint (x % n) (hashNumber n (H msg) * k ^ (n - 2) % n)) msg = .ok o') ∨
    ∃ o', ECDSA.verify E dg (ECDSA.newUncheck hf rd cv (.pub ⟨some 3, some 0⟩))
      (.formBigint (x % n) (n - hashNumber n (H msg) * k ^ (n - 2) % n)) msg = .ok o' := by
  have hn := hS.prime
  have h2n := hS.two_lt
  generalize hzd : hashNumber n (H msg) = z at hz ⊢
  have hnk : ¬ n ∣ k := fun hd => absurd (Nat.le_of_dvd hk0 hd) (by omega)
  have hi := ECDSA.inv_spec hn hnk
  have hiz := ECDSA.inv_spec hn hz
  -- the verifier, for a number whose inverse is `w`
  have key : ∀ s w : ℕ, 0 < s → s < n → w < n → s * w ≡ 1 [MOD n] → xNumber ((z * w % n) • G) = some x → 2 ∣ x % n * w % n →
      ∃ o', ECDSA.verify E dg (ECDSA.newUncheck hf rd cv (.pub ⟨some 3, some 0⟩)) (.formBigint (x % n) s) msg = .ok o' := by
    intro s w hs0 hs1 hw1 hw hxw ⟨m, hm2⟩
    obtain ⟨y, hy⟩ := hh
    obtain ⟨hf', e, -⟩ := hashParts_ok L hy [msg] (by simpa using hm)
    rw [show [msg].flatten = msg by simp] at e
    have hH : H msg ≠ [] := by
      intro h0
      have := L.length msg
      rw [h0] at this
      simp at this
      omega
    have h3 := ECDSA.verifyInner_small (E := E) (cv := cv) { ECDSA.newUncheck hf rd cv (.pub ⟨some 3, some 0⟩) with hf := hf', hashBuf := H msg } rfl hS 3 0 rfl hH
      (x % n) s w x hr hs0 hs1 hw hw1 (by rw [hm2]; exact ECDSA.scalar_three hp hS m) (by simpa only [hzd] using hxw) rfl
    refine ⟨{ ECDSA.newUncheck hf rd cv (.pub ⟨some 3, some 0⟩) with hf := hf', hashBuf := H msg }, ?_⟩
    have hc := (C51_roundtrip (x % n) s hr hs0 .new).1
    have e' : hashParts dg (ECDSA.newUncheck hf rd cv (.pub ⟨some 3, some 0⟩)).hf [msg] = .ok (hf', H msg) := e
    unfold ECDSA.verify
    simp only [bind, Except.bind, e', hc]
    rw [h3]
  generalize hsd : z * k ^ (n - 2) % n = s
  have hs0 : 0 < s := by
    refine Nat.pos_of_ne_zero fun h0 => ?_
    rw [h0] at hsd
    rcases (Nat.Prime.dvd_mul hn).1 (Nat.dvd_of_mod_eq_zero hsd) with h | h
    · exact hz h
    · exact hnk (hn.dvd_of_dvd_pow h)
  have hs1 : s < n := by rw [← hsd]; exact Nat.mod_lt _ hn.pos
  generalize hwd : k * z ^ (n - 2) % n = w
  have hw1 : w < n := by rw [← hwd]; exact Nat.mod_lt _ hn.pos
  have hsw : s * w ≡ 1 [MOD n] := by
    rw [← hsd, ← hwd]
    have h1 : z * k ^ (n - 2) % n * (k * z ^ (n - 2) % n) ≡ z * k ^ (n - 2) * (k * z ^ (n - 2)) [MOD n] := (Nat.mod_modEq _ _).mul (Nat.mod_modEq _ _)
    rw [show z * k ^ (n - 2) * (k * z ^ (n - 2)) = (k * k ^ (n - 2)) * (z * z ^ (n - 2)) by ring] at h1
    exact h1.trans (hi.mul hiz)
  have hzw : z * w ≡ k [MOD n] := by
    rw [← hwd]
    have h1 : z * (k * z ^ (n - 2) % n) ≡ z * (k * z ^ (n - 2)) [MOD n] := (Nat.mod_modEq _ _).mul_left z
    rw [show z * (k * z ^ (n - 2)) = k * (z * z ^ (n - 2)) by ring] at h1
    have h2 := hiz.mul_left k
    rw [Nat.mul_one] at h2
    exact h1.trans h2
  have hw0 : 0 < w := by
    refine Nat.pos_of_ne_zero fun h0 => ?_
    rw [h0, Nat.mul_zero] at hsw
    have : n ∣ 1 := (Nat.modEq_zero_iff_dvd).1 hsw.symm
    exact absurd (Nat.le_of_dvd (by decide) this) (by omega)
  by_cases hev : 2 ∣ x % n * w % n
  · refine Or.inl (key s w hs0 hs1 hw1 hsw ?_ hev)
    rw [← hx]
    exact congrArg xNumber (ECDSA.nsmul_congr hS ((Nat.mod_modEq _ _).trans hzw))
  · refine Or.inr (key (n - s) (n - w) (by omega) (by omega) (by omega) ?_ ?_ ?_)
    · rw [← Int.natCast_modEq_iff] at hsw ⊢
      push_cast [Nat.cast_sub hs1.le, Nat.cast_sub hw1.le] at hsw ⊢
      refine Int.ModEq.trans ?_ hsw
      rw [Int.modEq_iff_dvd]
      exact ⟨(s : ℤ) + w - n, by ring⟩
    · have e : (z * (n - w) % n) • G = -((z * w) • G) := by
        rw [eq_neg_iff_add_eq_zero, ECDSA.nsmul_congr hS (Nat.mod_modEq (z * (n - w)) n), ← add_nsmul, ← Nat.mul_add, Nat.sub_add_cancel hw1.le]
        have : addOrderOf G ∣ z * n := by rw [hS.order]; exact Nat.dvd_mul_left _ _
        exact addOrderOf_dvd_iff_nsmul_eq_zero.1 this
      rw [e, ECDSA.xNumber_neg, ECDSA.nsmul_congr hS hzw, hx]
    · have hodd : n % 2 = 1 := by
        rcases hn.eq_two_or_odd with h | h
        · omega
        · exact h
      have hrn : x % n < n := Nat.mod_lt _ hn.pos
      have hnd : ¬ n ∣ x % n * w := by
        intro hd
        rcases (Nat.Prime.dvd_mul hn).1 hd with h | h
        · exact absurd (Nat.le_of_dvd hr h) (by omega)
        · exact absurd (Nat.le_of_dvd hw0 h) (by omega)
      have h1 : x % n * (n - w) % n = n - x % n * w % n := by
        have hm0 : x % n * w % n ≠ 0 := fun h0 => hnd (Nat.dvd_of_mod_eq_zero h0)
        have hlt : n - x % n * w % n < n := by omega
        have : x % n * (n - w) ≡ n - x % n * w % n [MOD n] := by
          have hle : x % n * w % n ≤ n := (Nat.mod_lt _ hn.pos).le
          rw [← Int.natCast_modEq_iff]
          push_cast [Nat.cast_sub hw1.le, Nat.cast_sub hle]
          rw [Int.modEq_iff_dvd]
          have h2 : ((x : ℤ) % n * w) % n = (x : ℤ) % n * w - n * ((x : ℤ) % n * w / n) := Int.emod_def _ _
          refine ⟨1 - (x : ℤ) % n + (x : ℤ) % n * w / n, ?_⟩
          linear_combination -h2
        rw [this, Nat.mod_eq_of_lt hlt]
      rw [h1]
      have := Nat.mod_lt (x % n * w) hn.pos
      omega

/-- C105, false as stated: a signature alone binds no message. From an accepted signature of one message everybody can compute, with the operations of the
library, a public key with which the same signature is accepted for any other message: the old public key plus `t * G`, where
`t = (z - z') / r` modulo `n`. (The old signer knows the private key of the new public key as well.) -/
theorem C105_ecdsa_transfer_refuted (L : LawfulDigest dg H bs size Abs Chk) (hsz : 0 < size) (hS : Setting (E.curveParams cv) p n G)
    (o : ECDSA.Obj σ S C) (ho : GoodObj Abs Chk o) (hcv : o.curve = cv) (qx qy : ℤ) (d : ℕ) (hk : o.kp.publicKey = ⟨some qx, some qy⟩)
    (hQ : Encodes p (E.curveParams cv).b qx qy (d • G)) (r s : ℕ) (hr : 0 < r) (hs : 0 < s) (msg msg' : Bytes) (hm : msg.length < 2 ^ 64)
    (hm' : msg'.length < 2 ^ 64) (h : ∃ o', ECDSA.verify E dg o (.formBigint r s) msg = .ok o') (hf : S) (hh : GoodState Abs Chk hf) (rd : σ) (t : ℕ)
    (ht : t = (hashNumber n (H msg) + (n - hashNumber n (H msg') % n)) * r ^ (n - 2) % n) (T : Elliptic.Big × Elliptic.Big)
    (hT : T = Elliptic.scalarBasePoint (E.curveParams cv) (some t)) (Q : Elliptic.Big × Elliptic.Big)
    (hQ' : Q = Elliptic.add (E.curveParams cv) (some qx) (some qy) T.1 T.2) :
    ∃ o', ECDSA.verify E dg (ECDSA.newUncheck hf rd cv (.pub ⟨Q.1, Q.2⟩)) (.formBigint r s) msg' = .ok o' := by
  have hc := (C51_roundtrip r s hr hs .new).1
  have a := (ecdsa_verify_iff L hsz o ho hcv hS qx qy d hk hQ _ msg hm r s hc).1 h
  have hn := hS.prime
  have hnr : ¬ n ∣ r := fun hd => absurd (Nat.le_of_dvd hr hd) (by have := a.2.1; omega)
  have hi := ECDSA.inv_spec hn hnr
  obtain ⟨tx, ty, e1, E1, -⟩ := ECDSA.base_ok hS t
  obtain ⟨x, y, e2, E2, -⟩ := ECDSA.add_ok hS hQ E1
  subst hT
  rw [e1] at hQ'
  dsimp only at hQ'
  rw [e2] at hQ'
  subst hQ'
  rw [← add_nsmul] at E2
  refine (ecdsa_verify_iff L hsz _ (C53_new hf hh rd cv _) rfl hS x y (d + t) rfl E2 _ msg' hm' r s hc).2 (ECDSA.accepts_transfer hS a ?_)
  have htr : t * r ≡ hashNumber n (H msg) + (n - hashNumber n (H msg') % n) [MOD n] := by
    rw [ht]
    refine ((Nat.mod_modEq _ _).mul_right r).trans ?_
    rw [show ∀ u : ℕ, u * r ^ (n - 2) * r = u * (r * r ^ (n - 2)) from fun u => by ring]
    have := hi.mul_left (hashNumber n (H msg) + (n - hashNumber n (H msg') % n))
    rwa [Nat.mul_one] at this
  have h0 : hashNumber n (H msg') + (n - hashNumber n (H msg') % n) ≡ 0 [MOD n] := by
    rw [Nat.modEq_zero_iff_dvd]
    have h1 := Nat.div_add_mod (hashNumber n (H msg')) n
    have h2 := Nat.mod_lt (hashNumber n (H msg')) hn.pos
    exact ⟨hashNumber n (H msg') / n + 1, by rw [Nat.mul_add, Nat.mul_one]; omega⟩
  have h1 : hashNumber n (H msg') + (d + t) * r ≡
      hashNumber n (H msg') + (d * r + (hashNumber n (H msg) + (n - hashNumber n (H msg') % n))) [MOD n] := by
    rw [Nat.add_mul]
    exact (htr.add_left (d * r)).add_left _
  refine h1.trans ?_
  rw [show hashNumber n (H msg') + (d * r + (hashNumber n (H msg) + (n - hashNumber n (H msg') % n))) =
    (hashNumber n (H msg) + d * r) + (hashNumber n (H msg') + (n - hashNumber n (H msg') % n)) by ring]
  exact h0.add_left _

/-- C105, false as stated: a signature and its message do not determine the public key. There is always a second public key, `-Q - (2 * z / r) * G`, for which
the same signature of the same message is accepted; everybody can compute it, and it is different from the first. -/
theorem C105_ecdsa_second_key_refuted (L : LawfulDigest dg H bs size Abs Chk) (hsz : 0 < size) (hS : Setting (E.curveParams cv) p n G)
    (o : ECDSA.Obj σ S C) (ho : GoodObj Abs Chk o) (hcv : o.curve = cv) (qx qy : ℤ) (d : ℕ) (hk : o.kp.publicKey = ⟨some qx, some qy⟩)
    (hQ : Encodes p (E.curveParams cv).b qx qy (d • G)) (r s : ℕ) (hr : 0 < r) (hs : 0 < s) (msg : Bytes) (hm : msg.length < 2 ^ 64)
    (h : ∃ o', ECDSA.verify E dg o (.formBigint r s) msg = .ok o') (hf : S) (hh : GoodState Abs Chk hf) (rd : σ) (t : ℕ)
    (ht : t = n - 2 * hashNumber n (H msg) * r ^ (n - 2) % n) (T : Elliptic.Big × Elliptic.Big)
    (hT : T = Elliptic.scalarBasePoint (E.curveParams cv) (some t)) (M : Elliptic.Big × Elliptic.Big)
    (hM : M = Elliptic.scalar (E.curveParams cv) (some qx) (some qy) (some (n - 1))) (Q : Elliptic.Big × Elliptic.Big)
    (hQ' : Q = Elliptic.add (E.curveParams cv) M.1 M.2 T.1 T.2) :
    (∃ o', ECDSA.verify E dg (ECDSA.newUncheck hf rd cv (.pub ⟨Q.1, Q.2⟩)) (.formBigint r s) msg = .ok o') ∧ Q ≠ (some qx, some qy) := by
  have hc := (C51_roundtrip r s hr hs .new).1
  have a := (ecdsa_verify_iff L hsz o ho hcv hS qx qy d hk hQ _ msg hm r s hc).1 h
  have hn := hS.prime
  have h2n := hS.two_lt
  have hnr : ¬ n ∣ r := fun hd => absurd (Nat.le_of_dvd hr hd) (by have := a.2.1; omega)
  have hi := ECDSA.inv_spec hn hnr
  obtain ⟨tx, ty, e1, E1, -⟩ := ECDSA.base_ok hS t
  obtain ⟨mx, my, e3, E3, -⟩ := ECDSA.scalar_ok hS hQ (n - 1)
  obtain ⟨x, y, e2, E2, -⟩ := ECDSA.add_ok hS E3 E1
  subst hT
  rw [e3] at hM
  subst hM
  rw [e1] at hQ'
  dsimp only at hQ'
  rw [e2] at hQ'
  subst hQ'
  rw [← mul_nsmul, ← add_nsmul] at E2
  generalize hz : hashNumber n (H msg) = z at *
  have hsum : z + (d * (n - 1) + t) * r + (z + d * r) ≡ 0 [MOD n] := by
    have htr : t * r + 2 * z ≡ 0 [MOD n] := by
      have h1 : 2 * z * r ^ (n - 2) % n * r ≡ 2 * z [MOD n] := by
        refine ((Nat.mod_modEq _ _).mul_right r).trans ?_
        rw [show 2 * z * r ^ (n - 2) * r = 2 * z * (r * r ^ (n - 2)) by ring]
        have := hi.mul_left (2 * z)
        rwa [Nat.mul_one] at this
      have h2 : t * r + 2 * z ≡ t * r + 2 * z * r ^ (n - 2) % n * r [MOD n] := h1.symm.add_left _
      refine h2.trans ?_
      rw [← Nat.add_mul, ht, Nat.sub_add_cancel (Nat.mod_lt _ hn.pos).le]
      exact (Nat.modEq_zero_iff_dvd).2 (Nat.dvd_mul_right _ _)
    have h3 : z + (d * (n - 1) + t) * r + (z + d * r) = (t * r + 2 * z) + n * (d * r) := by
      obtain ⟨m, rfl⟩ : ∃ m, n = m + 1 := ⟨n - 1, by omega⟩
      rw [Nat.add_sub_cancel]
      ring
    rw [h3]
    have := htr.add ((Nat.modEq_zero_iff_dvd).2 (Nat.dvd_mul_right n (d * r)))
    simpa using this
  refine ⟨(ecdsa_verify_iff L hsz _ (C53_new hf hh rd cv _) rfl hS x y (d * (n - 1) + t) rfl E2 _ msg hm r s hc).2 ?_, ?_⟩
  · rw [hz]
    exact ECDSA.accepts_opposite hS a hsum
  · intro he
    rw [Prod.mk.injEq, Option.some.injEq, Option.some.injEq] at he
    rw [he.1, he.2] at E2
    have e4 := encodes_inj hS.valid hQ E2
    have e5 := nsmul_eq_nsmul_iff_modEq.1 e4
    rw [hS.order] at e5
    have e6 : z + d * r + (z + d * r) ≡ 0 [MOD n] := by
      refine Nat.ModEq.trans ?_ hsum
      exact ((e5.mul_right r).add_left z).add_right _
    have e7 : n ∣ 2 * (z + d * r) := by
      rw [← Nat.two_mul] at e6
      exact (Nat.modEq_zero_iff_dvd).1 e6
    rcases (Nat.Prime.dvd_mul hn).1 e7 with h | h
    · exact absurd (Nat.le_of_dvd (by decide) h) (by omega)
    · exact ECDSA.accepts_ne hS a h

end

/-- C105: on P-224, P-256, P-384 and P-521 a check that the library offers makes a received key a real one: if `is_on_curve` accepts the two numbers, there is
exactly one private key in `1..n-1` whose public point, as computed by `scalar_base_point`, is the received one (modulo `p`). -/
theorem C105_ecdsa_checked_partial (c : CurveParams) (hc : c ∈ [Elliptic.p224, Elliptic.p256, Elliptic.p384, Elliptic.p521]) (x y : ℤ)
    (h : Elliptic.isOnCurve c (some x) (some y) = true) :
    ∃! d : ℕ, (0 < d ∧ (d : ℤ) < c.n) ∧ Elliptic.scalarBasePoint c (some d) = (some (x % c.p), some (y % c.p)) := by
  have hf : FullOrder c ∧ GoodCurve c := by
    simp only [List.mem_cons, List.not_mem_nil, or_false] at hc
    rcases hc with rfl | rfl | rfl | rfl
    · exact ⟨C55_order_p224, C55_p224⟩
    · exact ⟨C55_order_p256, C55_p256⟩
    · exact ⟨C55_order_p384, C55_p384⟩
    · exact ⟨C55_order_p521, C55_p521⟩
  obtain ⟨⟨p, hp, h1, hv, -, -, hall⟩, p', n, hp', h1', h2, h3, h4, G, h5, h6⟩ := hf
  have hpp : p' = p := by
    rw [h1] at h1'
    exact_mod_cast h1'.symm
  subst hpp
  obtain ⟨P, hP0, hP⟩ := (C52_on_curve c p' h1 hv x y).1 h
  -- the reduced coordinates stand for the same point
  have hred : Encodes p' c.b (x % p') (y % p') P := by
    rcases hP with ⟨-, -, h0⟩ | ⟨hn, rfl⟩
    · exact absurd h0 hP0
    · have ex : ((x % p' : ℤ) : ZMod p') = (x : ZMod p') := by
        rw [ZMod.intCast_eq_intCast_iff]; exact Int.mod_modEq _ _
      have ey : ((y % p' : ℤ) : ZMod p') = (y : ZMod p') := by
        rw [ZMod.intCast_eq_intCast_iff]; exact Int.mod_modEq _ _
      have hn' : (curve (c.b : ZMod p')).Nonsingular ((x % p' : ℤ) : ZMod p') ((y % p' : ℤ) : ZMod p') := by rw [ex, ey]; exact hn
      exact Or.inr ⟨hn', by congr 1 <;> [exact ex.symm; exact ey.symm]⟩
  have hpos : (0 : ℤ) < p' := by exact_mod_cast hp.out.pos
  have hR : Reduced p' (x % p') (y % p') := ⟨Int.emod_nonneg _ hpos.ne', Int.emod_lt_of_pos _ hpos, Int.emod_nonneg _ hpos.ne', Int.emod_lt_of_pos _ hpos⟩
  obtain ⟨d, hd, e⟩ := hall G h5 P
  rw [h2, Int.toNat_natCast] at hd
  have hbase : ∀ d : ℕ, ∃ x1 y1 : ℤ, Elliptic.scalarBasePoint c (some d) = (some x1, some y1) ∧ Encodes p' c.b x1 y1 (d • G) ∧ Reduced p' x1 y1 := by
    intro d
    obtain ⟨x1, y1, e1, k1, r1⟩ := C52_scalar c p' h1 hv c.gx c.gy G h5 d
    exact ⟨x1, y1, e1, k1, r1⟩
  rw [h1, h2]
  refine ⟨d, ⟨⟨?_, by exact_mod_cast hd⟩, ?_⟩, ?_⟩
  · refine Nat.pos_of_ne_zero fun h0 => hP0 ?_
    rw [e, h0, zero_nsmul]
  · obtain ⟨x1, y1, e1, k1, r1⟩ := hbase d
    rw [← e] at k1
    have := C52_unique c p' x1 y1 _ _ _ k1 hred r1 hR
    rw [e1, this.1, this.2]
  · rintro d' ⟨⟨-, hd'⟩, e'⟩
    obtain ⟨x1, y1, e1, k1, r1⟩ := hbase d'
    rw [e1, Prod.mk.injEq, Option.some.injEq, Option.some.injEq] at e'
    rw [e'.1, e'.2] at k1
    have e3 := encodes_inj hv k1 hred
    rw [e] at e3
    have e4 := nsmul_eq_nsmul_iff_modEq.1 e3
    rw [h6] at e4
    exact Nat.ModEq.eq_of_lt_of_lt e4 (by exact_mod_cast hd') hd

/-! ## DSA -/

open Verif.Spec.DSA in
/-- C105, false as stated: with the public key `y = 1` everybody can sign every message with DSA: for every `k` the pair of `g^k mod p mod q` and `z * k⁻¹` is
accepted. The constructors take such a key. -/
theorem C105_dsa_one_refuted (L : LawfulDigest dg H bs size Abs Chk) (dp : DSA.Domain) (hd : ValidDomain dp.p dp.q dp.g) (hb : Model.RSA.bitsLen dp.q % 8 = 0)
    (hf : S) (hh : GoodState Abs Chk hf) (rd : σ) (msg : Bytes) (hm : msg.length < 2 ^ 64) (hz : ¬ dp.q ∣ beNat (H msg)) (k : ℕ) (hk : ¬ dp.q ∣ k)
    (hr : 0 < dp.g ^ k % dp.p % dp.q) :
    ∃ pk o o', DSA.PublicKey.newUncheck dp 1 = .ok pk ∧ DSA.newUncheck hf rd (.pub pk) = .ok o ∧
      DSA.verify dg o (.formBigint (dp.g ^ k % dp.p % dp.q) (beNat (H msg) * k ^ (dp.q - 2) % dp.q)) msg = .ok o' := by
  have a := DSA.accepts_one hd hk hz hr
  have hs := a.2.2.1
  obtain ⟨o', h⟩ := ((C49_verify L (⟨hf, rd, .pub ⟨dp, 1⟩⟩ : DSA.Obj σ S) hh hd.prime_p.ne_zero hb _ msg hm _ _ (C51_roundtrip _ _ hr hs .new).1).1).2 a
  refine ⟨⟨dp, 1⟩, ⟨hf, rd, .pub ⟨dp, 1⟩⟩, o', ?_, rfl, h⟩
  have h1 : 1 ≤ Nat.size dp.p := Nat.size_pos.2 hd.prime_p.pos
  rw [DSA.PublicKey.newUncheck, if_neg]
  simp only [Model.RSA.bitsLen, Nat.size_one]
  omega

open Verif.Spec.DSA in
/-- C105, false as stated: an accepted DSA signature is accepted for every other message with another public key, `y * g^t` with `t = (z - z') / r`, which
everybody can compute. -/
theorem C105_dsa_transfer_refuted (L : LawfulDigest dg H bs size Abs Chk) (o : DSA.Obj σ S) (hh : GoodState Abs Chk o.hf) (dp : DSA.Domain) (y : ℕ)
    (hk : o.kp.publicKey = ⟨dp, y⟩) (hd : ValidDomain dp.p dp.q dp.g) (hb : Model.RSA.bitsLen dp.q % 8 = 0) (r s : ℕ) (hr : 0 < r) (hs : 0 < s)
    (msg msg' : Bytes) (hm : msg.length < 2 ^ 64) (hm' : msg'.length < 2 ^ 64) (h : ∃ o', DSA.verify dg o (.formBigint r s) msg = .ok o') (hf : S)
    (hh' : GoodState Abs Chk hf) (rd : σ) (t : ℕ) (ht : t = (beNat (H msg) + (dp.q - beNat (H msg') % dp.q)) * r ^ (dp.q - 2) % dp.q) (o2 : DSA.Obj σ S)
    (ho2 : DSA.newUncheck hf rd (.pub ⟨dp, y * dp.g ^ t % dp.p⟩) = .ok o2) : ∃ o', DSA.verify dg o2 (.formBigint r s) msg' = .ok o' := by
  injection ho2 with ho2
  subst ho2
  have hc := (C51_roundtrip r s hr hs .new).1
  have a := ((C49_verify L o hh (by rw [hk]; exact hd.prime_p.ne_zero) (by rw [hk]; exact hb) _ msg hm r s hc).1).1 h
  rw [hk] at a
  dsimp only at a
  have hq := hd.prime_q
  have hnr : ¬ dp.q ∣ r := fun hd => absurd (Nat.le_of_dvd hr hd) (by have := a.2.1; omega)
  have hi := ECDSA.inv_spec hq hnr
  refine ((C49_verify L (⟨hf, rd, .pub ⟨dp, y * dp.g ^ t % dp.p⟩⟩ : DSA.Obj σ S) hh' hd.prime_p.ne_zero hb _ msg' hm' r s hc).1).2
    (DSA.accepts_move hd a ?_)
  have htr : t * r ≡ beNat (H msg) + (dp.q - beNat (H msg') % dp.q) [MOD dp.q] := by
    rw [ht]
    refine ((Nat.mod_modEq _ _).mul_right r).trans ?_
    rw [show ∀ u : ℕ, u * r ^ (dp.q - 2) * r = u * (r * r ^ (dp.q - 2)) from fun u => by ring]
    have := hi.mul_left (beNat (H msg) + (dp.q - beNat (H msg') % dp.q))
    rwa [Nat.mul_one] at this
  have h0 : beNat (H msg') + (dp.q - beNat (H msg') % dp.q) ≡ 0 [MOD dp.q] := by
    rw [Nat.modEq_zero_iff_dvd]
    have h1 := Nat.div_add_mod (beNat (H msg')) dp.q
    have h2 := Nat.mod_lt (beNat (H msg')) hq.pos
    exact ⟨beNat (H msg') / dp.q + 1, by rw [Nat.mul_add, Nat.mul_one]; omega⟩
  refine (htr.add_left (beNat (H msg'))).trans ?_
  rw [show beNat (H msg') + (beNat (H msg) + (dp.q - beNat (H msg') % dp.q)) = beNat (H msg) + (beNat (H msg') + (dp.q - beNat (H msg') % dp.q)) by ring]
  exact h0.add_left _

open Verif.Spec.DSA in
/-- C105: the check of SP 800-56A makes a received DSA key a real one: if `1 < y < p` and `y^q mod p = 1`, there is exactly one private key `x` in `1..q-1` with
`y = g^x mod p`. (The library has no function for this check.) -/
theorem C105_dsa_checked_partial (p q g y : ℕ) (hd : ValidDomain p q g) (h1 : 1 < y) (h2 : y < p) (h3 : y ^ q % p = 1) : ∃! x, ValidKey p q g y x := by
  obtain ⟨x, hx, e⟩ := DSA.power_of_order hd h2 h3
  have hp1 := hd.prime_p.one_lt
  have hx0 : 0 < x := by
    refine Nat.pos_of_ne_zero fun h0 => ?_
    rw [h0, pow_zero, Nat.mod_eq_of_lt hp1] at e
    omega
  refine ⟨x, ⟨hd, hx0, hx, e⟩, ?_⟩
  intro x' hv
  have : Fact p.Prime := ⟨hd.prime_p⟩
  have hg1 : (g : ZMod p) ≠ 1 := by
    intro h0
    have : ((g : ℕ) : ZMod p) = ((1 : ℕ) : ZMod p) := by push_cast; exact h0
    rw [ZMod.natCast_eq_natCast_iff, Nat.ModEq, Nat.mod_eq_of_lt hd.lt, Nat.mod_eq_of_lt hp1] at this
    have := hd.one_lt
    omega
  have hgq : ((g : ZMod p)) ^ q = 1 := by
    have : ((g ^ q : ℕ) : ZMod p) = ((1 : ℕ) : ZMod p) := (ZMod.natCast_eq_natCast_iff _ _ _).2 (by rw [Nat.ModEq, hd.order, Nat.mod_eq_of_lt hp1])
    push_cast at this
    exact this
  have hord : orderOf (g : ZMod p) = q := by
    have : Fact q.Prime := ⟨hd.prime_q⟩
    exact orderOf_eq_prime hgq hg1
  have e2 : ((g ^ x' : ℕ) : ZMod p) = ((g ^ x : ℕ) : ZMod p) := (ZMod.natCast_eq_natCast_iff _ _ _).2 (hv.y_eq.symm.trans e)
  push_cast at e2
  exact pow_injOn_Iio_orderOf (by rw [hord]; exact hv.x_lt) (by rw [hord]; exact hx) e2

/-! ## RSA -/

open Verif.Spec (toBE) in
open Verif.Spec.PKCS1 Verif.Spec.RSA in
/-- C105, false as stated: an RSA public key whose modulus is a prime is accepted, and then everybody can sign: the private exponent is the inverse of `e` modulo
`n - 1`. -/
theorem C105_rsa_prime_refuted (L : LawfulDigest dg H bs size Abs Chk) (pk : RSA.PublicKey) (hn : pk.n.Prime) (d : ℕ) (hd : pk.e * d ≡ 1 [MOD pk.n - 1])
    (o : PKCS1.Obj σ S) (hk : o.kp = .pub pk) (hh : GoodState Abs Chk o.hf) (alg : Bytes) (ha : algOf o.ty = some (alg, size)) (msg : Bytes)
    (hm : msg.length < 2 ^ 64) (hkl : (digestInfo alg (H msg)).length + 11 ≤ pk.modulusLen) :
    ∃ o', PKCS1.verify dg o (toBE pk.modulusLen (beNat (emsa pk.modulusLen (digestInfo alg (H msg))) ^ d % pk.n)) msg = .ok o' := by
  have hpk : o.kp.publicKey = pk := by rw [hk]; rfl
  refine ((C46_verify_partial L o (by rw [hpk]; exact hn.pos) hh alg ha _ msg hm (by rw [hpk]; exact hkl)).1).2 ?_
  rw [hpk]
  have hlt := PKCS1.emsa_lt hn.pos hkl
  generalize hem : emsa pk.modulusLen (digestInfo alg (H msg)) = em at hlt ⊢
  have hl : em.length = pk.modulusLen := by rw [← hem]; exact PKCS1.length_emsa hkl
  have hb : beNat (toBE pk.modulusLen (beNat em ^ d % pk.n)) = beNat em ^ d % pk.n := by
    rw [Spec.beNat_toBE]
    refine Nat.mod_eq_of_lt (lt_trans (Nat.mod_lt _ hn.pos) ?_)
    exact (modulusLen_spec pk hn.pos).2.1
  rw [hb, rsaep, ← Nat.pow_mod, ← pow_mul, Nat.mul_comm d pk.e]
  have hfer : beNat em ^ (pk.e * d) % pk.n = beNat em := by
    have h2 := hn.two_le
    have : Fact pk.n.Prime := ⟨hn⟩
    obtain ⟨q, hq⟩ : ∃ q, pk.e * d = 1 + (pk.n - 1) * q := by
      have h1 : 1 ≤ pk.e * d := by
        refine Nat.pos_of_ne_zero fun h0 => ?_
        rw [h0] at hd
        have h3 : pk.n - 1 ∣ 1 := (Nat.modEq_zero_iff_dvd).1 hd.symm
        have h4 := Nat.le_of_dvd (by decide) h3
        obtain ⟨-, -, h5⟩ := modulusLen_spec pk hn.pos
        have h6 : 256 ^ 1 ≤ 256 ^ (pk.modulusLen - 1) := Nat.pow_le_pow_right (by decide) (by omega)
        omega
      obtain ⟨q, hq⟩ := (Nat.modEq_iff_dvd' h1).1 hd.symm
      exact ⟨q, by omega⟩
    have hz : ((beNat em ^ (pk.e * d) : ℕ) : ZMod pk.n) = ((beNat em : ℕ) : ZMod pk.n) := by
      push_cast
      rw [hq, pow_add, pow_one, pow_mul]
      by_cases h0 : ((beNat em : ℕ) : ZMod pk.n) = 0
      · rw [h0, zero_mul]
      · rw [ZMod.pow_card_sub_one_eq_one h0, one_pow, mul_one]
    have := (ZMod.natCast_eq_natCast_iff _ _ _).1 hz
    rw [Nat.ModEq, Nat.mod_eq_of_lt hlt] at this
    exact this
  rw [hfer, ← hl]
  exact Spec.toBE_beNat em

end

/-! ## The hypotheses are met -/

/-- The first coordinate of the base point of P-256, with the secret number 1. -/
theorem xNumber_base {p n : ℕ} [Fact p.Prime] {G : Point p Elliptic.p256.b} (hS : Setting Elliptic.p256 p n G) :
    xNumber (1 • G) = some Elliptic.p256.gx.toNat := by
  have hp : p = 115792089210356248762697446949407573530086143415290314195533631308867097853951 := Int.ofNat.inj (hS.p_eq.symm)
  subst hp
  rw [one_nsmul]
  rcases ECDSA.xNumber_of hS.base (by constructor <;> decide +kernel) with ⟨-, h0, -⟩ | h0
  · exact absurd h0 (by decide +kernel)
  · exact h0

/-- `C105_ecdsa_infinity_refuted` and `C105_ecdsa_off_curve_refuted` on P-256 with SHA-256, the empty message and `k = 1`; `is_on_curve` accepts neither of the two
keys. -/
example : Elliptic.isOnCurve Elliptic.p256 (some 0) (some 0) = false ∧ Elliptic.isOnCurve Elliptic.p256 (some 3) (some 0) = false ∧
    (∃ r s o', ECDSA.verify Elliptic.generic SHA2.sha256 (ECDSA.newUncheck (SHA2.new256 SHA2.init256) () Elliptic.p256 (.pub ⟨some 0, some 0⟩)) (.formBigint r s) [] = .ok o') ∧
    ∃ r s o', ECDSA.verify Elliptic.generic SHA2.sha256 (ECDSA.newUncheck (SHA2.new256 SHA2.init256) () Elliptic.p256 (.pub ⟨some 3, some 0⟩)) (.formBigint r s) [] = .ok o' := by
  refine ⟨by decide +kernel, by decide +kernel, ?_⟩
  obtain ⟨p, n, hpf, G, hS⟩ := setting_of_good C55_p256 (by decide +kernel)
  have hp : p = 115792089210356248762697446949407573530086143415290314195533631308867097853951 := Int.ofNat.inj (hS.p_eq.symm)
  have hn : n = 115792089210356248762697446949407573529996955224135760342422259061068512044369 := Int.ofNat.inj (hS.n_eq.symm)
  subst hp hn
  have hz : ¬ 115792089210356248762697446949407573529996955224135760342422259061068512044369 ∣
      hashNumber 115792089210356248762697446949407573529996955224135760342422259061068512044369 (Spec.SHA.sha256 []) := by
    rw [sha256_nil]; decide +kernel
  obtain ⟨o1, h1⟩ := C105_ecdsa_infinity_refuted (E := Elliptic.generic) SHA2.law256 (by decide) hS _ good256 () [] (by decide) hz 1 _ (by decide) (by decide)
    (xNumber_base hS) (by decide +kernel)
  refine ⟨⟨_, _, o1, h1⟩, ?_⟩
  rcases C105_ecdsa_off_curve_refuted (E := Elliptic.generic) SHA2.law256 (by decide) hS (by decide) _ good256 () [] (by decide) hz 1 _ (by decide) (by decide)
    (xNumber_base hS) (by decide +kernel) with ⟨o2, h2⟩ | ⟨o2, h2⟩
  · exact ⟨_, _, o2, h2⟩
  · exact ⟨_, _, o2, h2⟩

/-- `C105_ecdsa_transfer_refuted` and `C105_ecdsa_second_key_refuted` with the signature of `C53_demo`: it becomes a signature of the message `[1]` under another key, and
of the empty message under another key. -/
example : ∃ r s : ℕ, (∃ v, ECDSA.verify Elliptic.generic SHA2.sha256 demoECDSA (.formBigint r s) [] = .ok v) ∧
    (∃ Q v, ECDSA.verify Elliptic.generic SHA2.sha256 (ECDSA.newUncheck (SHA2.new256 SHA2.init256) () Elliptic.p256 (.pub Q)) (.formBigint r s) [1#8] = .ok v) ∧
    ∃ Q v, Q ≠ demoECDSA.kp.publicKey ∧
      ECDSA.verify Elliptic.generic SHA2.sha256 (ECDSA.newUncheck (SHA2.new256 SHA2.init256) () Elliptic.p256 (.pub Q)) (.formBigint r s) [] = .ok v := by
  obtain ⟨o', c, v, -, h2, s, hs, rfl⟩ := C53_demo
  obtain ⟨p, n, hpf, G, hS⟩ := setting_of_good C55_p256 (by decide +kernel)
  have hg : GoodObj (MD.Abs SHA2.params256 SHA2.init256) (MD.Chk (fun q => (SHA2.out256 q).take 32) Spec.SHA.sha256) demoECDSA := C53_new _ good256 _ _ _
  have hQ : Encodes p Elliptic.p256.b Elliptic.p256.gx Elliptic.p256.gy (1 • G) := by rw [one_nsmul]; exact hS.base
  obtain ⟨v1, h3⟩ := C105_ecdsa_transfer_refuted (E := Elliptic.generic) SHA2.law256 (by decide) hS demoECDSA hg rfl _ _ 1 rfl hQ _ s (by decide) hs [] [1#8]
    (by decide) (by decide) ⟨v, h2⟩ _ good256 () _ rfl _ rfl _ rfl
  obtain ⟨⟨v2, h4⟩, h5⟩ := C105_ecdsa_second_key_refuted (E := Elliptic.generic) SHA2.law256 (by decide) hS demoECDSA hg rfl _ _ 1 rfl hQ _ s (by decide) hs []
    (by decide) ⟨v, h2⟩ _ good256 () _ rfl _ rfl _ rfl _ rfl
  refine ⟨_, s, ⟨v, h2⟩, ⟨_, v1, h3⟩, _, v2, ?_, h4⟩
  intro he
  refine h5 ?_
  have he' := Elliptic.PublicKey.mk.inj he
  exact Prod.ext he'.1 he'.2

/-- A key that the check of `C105_ecdsa_checked_partial` accepts. -/
example : Elliptic.isOnCurve Elliptic.p521 (some Elliptic.p521.gx) (some Elliptic.p521.gy) = true := by decide +kernel

/-- `C105_dsa_one_refuted` with the numbers of `leakKey`, MD5, the message `[1]` and `k = 5`. -/
example : ∃ pk o o' r s, DSA.PublicKey.newUncheck leakKey.pk.dp 1 = .ok pk ∧ DSA.newUncheck MD5.new () (.pub pk) = .ok o ∧
    DSA.verify MD5.digest o (.formBigint r s) [1#8] = .ok o' := by
  obtain ⟨pk, o, o', h1, h2, h3⟩ := C105_dsa_one_refuted MD5.lawful leakKey.pk.dp leakKey_valid.toValidDomain (by decide +kernel) MD5.new leakObj_good () [1#8] (by decide)
    (by decide +kernel) 5 (by decide +kernel) (by decide +kernel)
  exact ⟨pk, o, o', _, _, h1, h2, h3⟩

/-- `C105_dsa_transfer_refuted` with the signature above, for the message `[2]`. -/
example : ∃ (pk pk' : DSA.PublicKey) (r s : ℕ) (v v' : DSA.Obj Unit (MD.State MD5.Quad)),
    DSA.verify MD5.digest ⟨MD5.new, (), .pub pk⟩ (.formBigint r s) [1#8] = .ok v ∧
    DSA.verify MD5.digest ⟨MD5.new, (), .pub pk'⟩ (.formBigint r s) [2#8] = .ok v' := by
  obtain ⟨pk, o, o', h1, h2, h3⟩ := C105_dsa_one_refuted MD5.lawful leakKey.pk.dp leakKey_valid.toValidDomain (by decide +kernel) MD5.new leakObj_good () [1#8] (by decide)
    (by decide +kernel) 5 (by decide +kernel) (by decide +kernel)
  rw [DSA.newUncheck, Except.ok.injEq] at h2
  subst h2
  obtain rfl : pk = ⟨leakKey.pk.dp, 1⟩ := by
    rw [DSA.PublicKey.newUncheck] at h1
    split at h1
    · cases h1
    · exact (Except.ok.inj h1).symm
  have hr : 0 < leakKey.pk.dp.g ^ 5 % leakKey.pk.dp.p % leakKey.pk.dp.q := by decide +kernel
  have hs : 0 < beNat (Spec.MD5.hash [1#8]) * 5 ^ (leakKey.pk.dp.q - 2) % leakKey.pk.dp.q := by decide +kernel
  have hb : Model.RSA.bitsLen leakKey.pk.dp.q % 8 = 0 := by decide +kernel
  have hd := leakKey_valid.toValidDomain
  revert h3 hr hs hb hd
  generalize leakKey.pk.dp = dp
  generalize dp.g ^ 5 % dp.p % dp.q = r
  generalize beNat (Spec.MD5.hash [1#8]) * 5 ^ (dp.q - 2) % dp.q = s
  intro h3 hr hs hb hd
  obtain ⟨v', h4⟩ := C105_dsa_transfer_refuted MD5.lawful ⟨MD5.new, (), .pub ⟨dp, 1⟩⟩ leakObj_good dp 1 rfl hd hb r s
    hr hs [1#8] [2#8] (by decide) (by decide) ⟨o', h3⟩ MD5.new leakObj_good () _ rfl _ rfl
  exact ⟨_, _, _, _, o', v', h3, h4⟩

/-- A key that the check of `C105_dsa_checked_partial` accepts. -/
example : 1 < leakKey.pk.y ∧ leakKey.pk.y < leakKey.pk.dp.p ∧ leakKey.pk.y ^ leakKey.pk.dp.q % leakKey.pk.dp.p = 1 := by decide +kernel

/-- `C105_rsa_prime_refuted` with the prime `2^521 - 1` and `e = 65537`: the constructors accept the key, and every message can be signed. -/
example (msg : Bytes) (hm : msg.length < 2 ^ 64) : ∃ pk o sig o', RSA.PublicKey.fromNat (2 ^ 521 - 1) 65537 = .ok pk ∧ pk.n.Prime ∧
    PKCS1.new .md5 MD5.new () (.pub pk) false = .ok o ∧ PKCS1.verify MD5.digest o sig msg = .ok o' := by
  have e : 2 ^ 521 - 1 = 6864797660130609714981900799081393217269435300143305409394463459185543183397656052122559640661454554977296311391480858037121987999716643812574028291115057151 := by
    decide +kernel
  have hp : (2 ^ 521 - 1).Prime := by rw [e]; exact CurvePrimes.prime_p521
  obtain ⟨o', h⟩ := C105_rsa_prime_refuted MD5.lawful ⟨2 ^ 521 - 1, 65537⟩ hp
    5155328233496318390256865764810548697290840245466729669258087920880340553538954146776874404297340568416582885358721232128614872261196790492751513654940106623
    (by decide +kernel) (⟨.pub ⟨2 ^ 521 - 1, 65537⟩, (), MD5.new, false, .md5⟩ : PKCS1.Obj Unit (MD.State MD5.Quad)) rfl
    ⟨[], Or.inl (MD.abs_new MD5.params (by decide) MD5.init)⟩ Spec.PKCS1.oidMD5 rfl msg hm
    (by rw [md5_len]; decide +kernel)
  have hi : (⟨2 ^ 521 - 1, 65537⟩ : RSA.PublicKey).isValid = .ok () := by decide +kernel
  have hl : ¬ (⟨2 ^ 521 - 1, 65537⟩ : RSA.PublicKey).modulusLen ≤ 11 := by decide +kernel
  refine ⟨⟨2 ^ 521 - 1, 65537⟩, _, _, o', by decide +kernel, hp, ?_, h⟩
  unfold PKCS1.new PKCS1.newUncheck
  simp only [PKCS1.checkHash, PKCS1.checkKey, hi, bind, Except.bind, KeyPair.publicKey]
  exact if_neg hl

end Verif.Props
