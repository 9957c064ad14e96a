import Verif.Proof.PSS
import Verif.Proof.PKCS1
import Verif.Model.DSA
import Verif.Model.ECDSA
import Verif.Spec.Outcome

/-! What `verify` makes of two messages with one digest. -/

namespace Verif.Model
open Verif.Model.RSA Verif.Spec
variable {σ S : Type} {d : Digest S} {H : Bytes → Bytes} {bs : Option Nat} {size : Nat} {Abs Chk : S → Bytes → Prop}

theorem slice_length {x y : Bytes} {i j : Nat} (h : slice x i j = .ok y) : y.length ≤ x.length := by
  unfold slice at h
  split at h
  · cases h; simp
  · cases h

theorem andHead_length {m : Byte} {x y : Bytes} (h : PSS.andHead m x = .ok y) : y.length = x.length := by
  cases x with
  | nil => cases h
  | cons a l => cases h; rfl

theorem PKCS1.verify_same (L : LawfulDigest d H bs size Abs Chk) (o : PKCS1.Obj σ S) (hh : ∃ x, Abs o.hf x ∨ Chk o.hf x) (sig m m' : Bytes)
    (hm : m.length < 2 ^ 64) (hm' : m'.length < 2 ^ 64) (h : H m = H m') : outcome (PKCS1.verify d o sig m) = outcome (PKCS1.verify d o sig m') := by
  obtain ⟨x, hx⟩ := hh
  obtain ⟨s, e, -⟩ := hashParts_ok L hx [m] (by simpa using hm)
  obtain ⟨s', e', -⟩ := hashParts_ok L hx [m'] (by simpa using hm')
  rw [List.flatten_singleton] at e e'
  unfold PKCS1.verify
  rw [e, e', h]
  simp only [bind, Except.bind]
  repeat' split
  all_goals rfl

theorem DSA.verify_same (L : LawfulDigest d H bs size Abs Chk) (o : DSA.Obj σ S) (hh : ∃ x, Abs o.hf x ∨ Chk o.hf x) (sig : DSA.SigContent) (m m' : Bytes)
    (hm : m.length < 2 ^ 64) (hm' : m'.length < 2 ^ 64) (h : H m = H m') : outcome (DSA.verify d o sig m) = outcome (DSA.verify d o sig m') := by
  obtain ⟨x, hx⟩ := hh
  obtain ⟨s, e, -⟩ := hashParts_ok L hx [m] (by simpa using hm)
  obtain ⟨s', e', -⟩ := hashParts_ok L hx [m'] (by simpa using hm')
  rw [List.flatten_singleton] at e e'
  unfold DSA.verify DSA.verifyInner
  rw [e, e', h]
  simp only [bind, Except.bind]
  repeat' split
  all_goals rfl

theorem ECDSA.verify_same {C : Type} (E : Elliptic.EllipticCurve C) (L : LawfulDigest d H bs size Abs Chk) (o : ECDSA.Obj σ S C)
    (hh : ∃ x, Abs o.hf x ∨ Chk o.hf x) (sig : DSA.SigContent) (m m' : Bytes)
    (hm : m.length < 2 ^ 64) (hm' : m'.length < 2 ^ 64) (h : H m = H m') : outcome (ECDSA.verify E d o sig m) = outcome (ECDSA.verify E d o sig m') := by
  obtain ⟨x, hx⟩ := hh
  obtain ⟨s, e, -⟩ := hashParts_ok L hx [m] (by simpa using hm)
  obtain ⟨s', e', -⟩ := hashParts_ok L hx [m'] (by simpa using hm')
  rw [List.flatten_singleton] at e e'
  unfold ECDSA.verify
  rw [e, e', h]
  have : ∀ r t, ECDSA.verifyInner E { o with hf := s, hashBuf := H m' } r t = ECDSA.verifyInner E { o with hf := s', hashBuf := H m' } r t := fun _ _ => rfl
  simp only [bind, Except.bind, this]
  repeat' split
  all_goals rfl

theorem PSS.verify_same (debug : Bool) (L : LawfulDigest d H bs size Abs Chk) (hs : 0 < size) (hsz : size + 4 < 2 ^ 64) (o : PSS.Obj σ S)
    (hh : ∃ x, Abs o.hf x ∨ Chk o.hf x) (hb : bitsLen o.kp.publicKey.n < 2 ^ 64) (sig m m' : Bytes)
    (hm : m.length < 2 ^ 64) (hm' : m'.length < 2 ^ 64) (h : H m = H m') : outcome (PSS.verify debug d o sig m) = outcome (PSS.verify debug d o sig m') := by
  obtain ⟨x, hx⟩ := hh
  obtain ⟨s, e, c⟩ := hashParts_ok L hx [m] (by simpa using hm)
  obtain ⟨s', e', c'⟩ := hashParts_ok L hx [m'] (by simpa using hm')
  rw [List.flatten_singleton] at e e'
  have key : outcome (PSS.verifyEM debug d o.hf o.slen (fitTo ((bitsLen o.kp.publicKey.n - 1 + 7) >>> 3) (natBytes (o.kp.publicKey.encrypt (beNat sig)))) m (bitsLen o.kp.publicKey.n - 1)) =
      outcome (PSS.verifyEM debug d o.hf o.slen (fitTo ((bitsLen o.kp.publicKey.n - 1 + 7) >>> 3) (natBytes (o.kp.publicKey.encrypt (beNat sig)))) m' (bitsLen o.kp.publicKey.n - 1)) := by
    generalize fitTo _ (natBytes (o.kp.publicKey.encrypt (beNat sig))) = em
    generalize hn : bitsLen o.kp.publicKey.n - 1 = emBits
    unfold PSS.verifyEM
    rw [e, e', h, hLen_eq L hx]
    simp only [bind, Except.bind]
    split
    · rfl
    split
    · rfl
    rename_i hle
    push Not at hle
    rw [Nat.shiftRight_eq_div_pow] at hle
    have hem : em.length < 2 ^ 62 := by omega
    split
    · rfl
    split
    · rfl
    split
    · rfl
    split
    · rfl
    split
    · rfl
    split
    · rfl
    split
    · rfl
    split
    · rfl
    rename_i db hdb
    split
    · rfl
    rename_i w hw
    have l1 := slice_length hdb
    have l2 := slice_length hw
    obtain ⟨f1, e1, g1⟩ := mgf1Xor_eq L hs ⟨_, Or.inr c⟩ db w (by omega)
    obtain ⟨f2, e2, g2⟩ := mgf1Xor_eq L hs ⟨_, Or.inr c'⟩ db w (by omega)
    rw [e1, e2]
    have l3 : (xorBytes db (Spec.PKCS1.mgf1 H size w db.length)).length ≤ db.length := by rw [length_xorBytes]; omega
    generalize xorBytes db (Spec.PKCS1.mgf1 H size w db.length) = db2 at l3
    simp only
    split
    · rfl
    split
    · rfl
    split
    · rfl
    rename_i db3 hdb3
    have l4 := andHead_length hdb3
    split
    · rfl
    split
    · rfl
    split
    · rfl
    split
    · rfl
    rename_i salt hsalt
    have l5 := slice_length hsalt
    have l6 := L.length m'
    obtain ⟨x1, g1⟩ := g1
    obtain ⟨x2, g2⟩ := g2
    obtain ⟨t1, k1, -⟩ := hashParts_ok L g1 [List.replicate 8 0x00#8, H m', salt] (by simp; omega)
    obtain ⟨t2, k2, -⟩ := hashParts_ok L g2 [List.replicate 8 0x00#8, H m', salt] (by simp; omega)
    rw [k1, k2]
    simp only
    split <;> rfl
  unfold PSS.verify
  simp only [bind, Except.bind]
  split
  · rfl
  split
  · rfl
  revert key
  generalize PSS.verifyEM debug d o.hf o.slen _ m _ = r
  generalize PSS.verifyEM debug d o.hf o.slen _ m' _ = r'
  intro key
  cases r <;> cases r' <;> simp_all [outcome, Except.map]

end Verif.Model
