import Verif.Props.DSALeak
import Verif.Props.OAEPText

/-! C92: the converse of `C92_made`, and messages that anybody can sign -/

namespace Verif.Props
open Verif.Model Verif.Model.RSA Verif.Spec.DSA

section
variable {σ S : Type} {d : Digest S} {H : Bytes → Bytes} {bs : Option Nat} {size : Nat} {Abs Chk : S → Bytes → Prop}

/-- C92: the pairs of `C92_made` are the only ones that are accepted: a container `(r, s)` is accepted for a message exactly if `r = g ^ u * y ^ v` modulo `p`
modulo `q` for some `u`, `v` with `s * v ≡ r` and `hash ≡ u * s` modulo `q`. -/
theorem C92_made_exact (L : LawfulDigest d H bs size Abs Chk) (o : DSA.Obj σ S) (hh : GoodState Abs Chk o.hf) (x : Nat)
    (hv : ValidKey o.kp.publicKey.dp.p o.kp.publicKey.dp.q o.kp.publicKey.dp.g o.kp.publicKey.y x)
    (hb : bitsLen o.kp.publicKey.dp.q % 8 = 0) (c : DSA.SigContent) (r s : Nat) (hc : c.toBigint = .ok (some r, some s)) (msg : Bytes)
    (hm : msg.length < 2 ^ 64) :
    (∃ o', DSA.verify d o c msg = .ok o') ↔ 0 < r ∧ 0 < s ∧ s < o.kp.publicKey.dp.q ∧ ∃ u v,
      r = o.kp.publicKey.dp.g ^ u * o.kp.publicKey.y ^ v % o.kp.publicKey.dp.p % o.kp.publicKey.dp.q ∧ s * v ≡ r [MOD o.kp.publicKey.dp.q] ∧
      beNat (H msg) ≡ u * s [MOD o.kp.publicKey.dp.q] := by
  have e := (C49_verify L o hh hv.prime_p.ne_zero hb c msg hm r s hc).1
  constructor
  · intro h
    obtain ⟨r0, -, s0, s1, w, -, hw, hr⟩ := e.1 h
    refine ⟨r0, s0, s1, _, _, hr, ?_, ?_⟩
    · refine ((Nat.mod_modEq (r * w) _).mul_left s).trans ?_
      rw [show s * (r * w) = s * w * r by ring]
      exact (hw.mul_right r).trans (by rw [one_mul])
    · refine Nat.ModEq.symm (((Nat.mod_modEq (beNat (H msg) * w) _).mul_right s).trans ?_)
      rw [show beNat (H msg) * w * s = s * w * beNat (H msg) by ring]
      exact (hw.mul_right _).trans (by rw [one_mul])
  · rintro ⟨r0, s0, s1, u, v, hr, h1, h2⟩
    obtain ⟨o', h3⟩ := C92_made L o hh x hv hb u v r s hr r0 s0 s1 h1 msg hm h2
    exact e.2 ((C49_verify L o hh hv.prime_p.ne_zero hb _ msg hm r s (C51_roundtrip r s r0 s0 .new).1).1.1 ⟨o', h3⟩)

/-- C92: for a message whose hash number is a multiple of `q` nothing secret is needed: the public key modulo `q`, taken twice, is accepted. -/
theorem C92_zero (L : LawfulDigest d H bs size Abs Chk) (o : DSA.Obj σ S) (hh : GoodState Abs Chk o.hf) (x : Nat)
    (hv : ValidKey o.kp.publicKey.dp.p o.kp.publicKey.dp.q o.kp.publicKey.dp.g o.kp.publicKey.y x)
    (hb : bitsLen o.kp.publicKey.dp.q % 8 = 0) (msg : Bytes) (hm : msg.length < 2 ^ 64) (hz : o.kp.publicKey.dp.q ∣ beNat (H msg))
    (hr : 0 < o.kp.publicKey.y % o.kp.publicKey.dp.q) :
    ∃ o', DSA.verify d o (.formBigint (o.kp.publicKey.y % o.kp.publicKey.dp.q : ℕ) (o.kp.publicKey.y % o.kp.publicKey.dp.q : ℕ)) msg = .ok o' := by
  refine C92_made L o hh x hv hb 0 1 _ _ ?_ hr hr (Nat.mod_lt _ hv.prime_q.pos) (by rw [mul_one]) msg hm ?_
  · rw [pow_zero, one_mul, pow_one, Nat.mod_eq_of_lt (a := o.kp.publicKey.y) (b := o.kp.publicKey.dp.p)]
    rw [hv.y_eq]; exact Nat.mod_lt _ hv.prime_p.pos
  · rw [zero_mul]; exact (Nat.modEq_zero_iff_dvd).2 hz

end

/-- The hypotheses of `C92_made_exact` are met by the signature of `C49_demo`, made with SHA-1 and a key with a `q` of 160 bits. -/
example : ∃ (c : DSA.SigContent) (r s : ℕ), c.toBigint = .ok (some r, some s) ∧ 0 < r ∧ 0 < s ∧ s < dsaKey.pk.dp.q ∧ ∃ u v,
    r = dsaKey.pk.dp.g ^ u * dsaKey.pk.y ^ v % dsaKey.pk.dp.p % dsaKey.pk.dp.q ∧ s * v ≡ r [MOD dsaKey.pk.dp.q] ∧
    beNat (Spec.SHA.sha1 []) ≡ u * s [MOD dsaKey.pk.dp.q] := by
  obtain ⟨o', c, v', h, hv⟩ := C49_demo
  obtain ⟨-, -, hb, r, s, k, hc, -⟩ := C49_sign SHA1.lawful wordRng 1 dsaKey dsaKey_valid.prime_q _ o' rfl goodSHA1 .new c [] (by decide) h
  exact ⟨c, r, s, hc, (C92_made_exact SHA1.lawful (⟨SHA1.new, (), .pub dsaKey.pk⟩ : DSA.Obj Unit _) goodSHA1 dsaKey.x dsaKey_valid hb c r s hc [] (by decide)).1 ⟨v', hv⟩⟩

/-- The hypotheses of `C92_zero` are met with the hash function of one byte of C97, which has a message with the hash number 0. -/
example : ∃ v, DSA.verify toyDigest (⟨([] : Bytes), (), .pub leakKey.pk⟩ : DSA.Obj Unit Bytes) (.formBigint (leakKey.pk.y % 251 : ℕ) (leakKey.pk.y % 251 : ℕ)) [4, 10] = .ok v :=
  C92_zero toyDigest_lawful (⟨([] : Bytes), (), .pub leakKey.pk⟩ : DSA.Obj Unit Bytes) ⟨[], Or.inl rfl⟩ leakKey.x leakKey_valid (by decide +kernel) [4, 10] (by decide)
    (by rw [show toyHash [4, 10] = [0] by decide]; exact Dvd.intro_left 0 rfl) (by decide +kernel)

end Verif.Props
