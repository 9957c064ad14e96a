import Verif.Model.PKCS1
import Verif.Proof.RSABytes

/-! Helper lemmas: PKCS #1 v1.5 -/

namespace Verif.Model.PKCS1
open Verif.Model.RSA Verif.Spec.RSA
open Verif.Spec (toBE)
open Verif.Spec.PKCS1 (eme IsPS emsa)

variable {σ S : Type}

theorem padLoop_ok {g : Rng σ} {bound fuel : Nat} {em em' : Bytes} {s s' : σ} (h : padLoop g bound fuel em s = .ok (em', s')) :
    ∃ pad, em' = em ++ pad ∧ (∀ x ∈ pad, x ≠ 0#8) ∧ bound < em'.length := by
  induction fuel generalizing em s with
  | zero => cases h
  | succ fuel ih =>
    rw [padLoop] at h
    have hf : ∀ x ∈ (be32 (g.word s).1).filter (· ≠ 0#8), x ≠ 0#8 := by
      intro x hx; simpa using (List.mem_filter.1 hx).2
    split at h
    · next hl =>
      simp only [Except.ok.injEq, Prod.mk.injEq] at h
      exact ⟨_, h.1.symm, hf, h.1 ▸ hl⟩
    · obtain ⟨pad, h1, h2, h3⟩ := ih h
      refine ⟨(be32 (g.word s).1).filter (· ≠ 0#8) ++ pad, by rw [h1, List.append_assoc], ?_, h3⟩
      intro x hx
      rcases List.mem_append.1 hx with hx | hx
      · exact hf x hx
      · exact h2 x hx

theorem padLoop_cases (g : Rng σ) (bound fuel : Nat) (em : Bytes) (s : σ) :
    padLoop g bound fuel em s = .error .diverge ∨ ∃ x, padLoop g bound fuel em s = .ok x := by
  induction fuel generalizing em s with
  | zero => exact Or.inl rfl
  | succ fuel ih =>
    rw [padLoop]
    split
    · exact Or.inr ⟨_, rfl⟩
    · exact ih _ _

/-- Enough non-zero bytes end the loop. -/
theorem padLoop_enough (g : Rng σ) (bound fuel : Nat) (em : Bytes) (s : σ)
    (h : bound < em.length + ((drawWords g fuel s).1.filter (· ≠ 0#8)).length) (h0 : em.length ≤ bound) :
    ∃ x, padLoop g bound fuel em s = .ok x := by
  induction fuel generalizing em s with
  | zero => simp [drawWords] at h; omega
  | succ fuel ih =>
    rw [padLoop]
    split
    · exact ⟨_, rfl⟩
    · next hl =>
      refine ih _ _ ?_ (by omega)
      rw [drawWords] at h
      simp only [List.filter_append, List.length_append] at h hl ⊢
      omega

theorem takeWhile_ps {ps : Bytes} (hp : ∀ x ∈ ps, x ≠ 0x00#8) (m : Bytes) : leadNonZero (ps ++ [0x00#8] ++ m) = ps := by
  unfold leadNonZero
  rw [List.append_assoc, List.takeWhile_append_of_pos (by intro x hx; simpa using hp x hx)]
  simp

theorem unpad_eme {ps m : Bytes} (hp : IsPS ps) (hl : 11 < (eme ps m).length) : unpad (eme ps m) = .ok m := by
  unfold unpad
  rw [if_neg (by omega), index_ok (by omega), index_ok (by omega)]
  simp only [bind, Except.bind]
  have e0 : (eme ps m)[0]'(by omega) = 0x00#8 := rfl
  have e1 : (eme ps m)[1]'(by omega) = 0x02#8 := rfl
  have ed : (eme ps m).drop 2 = ps ++ [0x00#8] ++ m := rfl
  rw [e0, e1, if_neg (by simp), ed, takeWhile_ps hp.2]
  have hlen : (eme ps m).length = 2 + ps.length + 1 + m.length := by simp [eme]; omega
  rw [if_neg (by have := hp.1; omega)]
  congr 1
  have : eme ps m = ([0x00#8, 0x02#8] ++ ps ++ [0x00#8]) ++ m := by simp [eme]
  rw [this]
  exact List.drop_left' (by simp; omega)

theorem takeWhile_split (b : Bytes) (h : (leadNonZero b).length ≠ b.length) :
    b = leadNonZero b ++ [0x00#8] ++ b.drop ((leadNonZero b).length + 1) := by
  induction b with
  | nil => exact absurd rfl h
  | cons x b ih =>
    by_cases hx : x = 0x00#8
    · subst hx; simp [leadNonZero]
    · have e : leadNonZero (x :: b) = x :: leadNonZero b := by simp [leadNonZero, hx]
      rw [e] at h ⊢
      simp only [List.length_cons, List.cons_append, List.drop_succ_cons] at h ⊢
      rw [← ih (by omega)]

theorem takeWhile_ne (b : Bytes) : ∀ x ∈ leadNonZero b, x ≠ 0x00#8 := by
  induction b with
  | nil => intro x hx; cases hx
  | cons y b ih =>
    intro x hx
    by_cases hy : y = 0x00#8
    · subst hy; simp [leadNonZero] at hx
    · have e : leadNonZero (y :: b) = y :: leadNonZero b := by simp [leadNonZero, hy]
      rw [e] at hx
      rcases List.mem_cons.1 hx with rfl | hx
      · exact hy
      · exact ih x hx

theorem unpad_ok {em m : Bytes} (h : unpad em = .ok m) : ∃ ps, IsPS ps ∧ em = eme ps m := by
  unfold unpad at h
  split at h
  · cases h
  · next hl =>
    rw [index_ok (by omega), index_ok (by omega)] at h
    simp only [bind, Except.bind] at h
    split at h
    · cases h
    · next h01 =>
      rw [not_or, Decidable.not_not, Decidable.not_not] at h01
      split at h
      · cases h
      · next hi =>
        simp only [Except.ok.injEq] at h
        rw [not_or] at hi
        match em, hl with
        | a :: b :: rest, hl =>
          simp only [List.getElem_cons_zero, List.getElem_cons_succ] at h01
          obtain ⟨rfl, rfl⟩ := h01
          have ed : List.drop 2 (0x00#8 :: 0x02#8 :: rest) = rest := rfl
          rw [ed] at hi h
          simp only [List.length_cons] at hi
          refine ⟨leadNonZero rest, ⟨by omega, takeWhile_ne rest⟩, ?_⟩
          have := takeWhile_split rest (by omega)
          have e : 2 + (leadNonZero rest).length + 1 = (leadNonZero rest).length + 1 + 2 := by omega
          rw [e] at h
          have e2 : List.drop ((leadNonZero rest).length + 1 + 2) (0x00#8 :: 0x02#8 :: rest) = rest.drop ((leadNonZero rest).length + 1) := rfl
          rw [e2] at h
          rw [h] at this
          unfold eme
          rw [List.append_assoc, List.append_assoc, ← List.append_assoc (leadNonZero rest), ← this]
          rfl

theorem rawDecrypt_cases (g : Rng σ) (fuel : Nat) {sk : RSA.PrivateKey} (hv : ValidKey sk.pk.n sk.pk.e sk.d sk.primes) (hk : Computed sk)
    (bl : Bool) (rd : σ) {c : Nat} (hc : c ≤ sk.pk.n) :
    ((bl = true ∧ ¬ Usable g sk.pk.n fuel rd) ∧ rawDecrypt g fuel sk bl rd c = .error .diverge) ∨
      ∃ rd', rawDecrypt g fuel sk bl rd c = .ok (some ((c ^ sk.d % sk.pk.n : Nat) : Int), rd') := by
  unfold rawDecrypt
  rcases decrypt_cases g fuel hv hk hc (if bl = true then some rd else none) with ⟨⟨s, hs, hd⟩, h⟩ | ⟨rd', h⟩
  · refine Or.inl ⟨?_, by rw [h]; rfl⟩
    split at hs
    · next hb =>
      cases hs
      refine ⟨hb, fun hu => ?_⟩
      obtain ⟨x, hx⟩ := blindLoop_usable hu
      rw [hx] at hd; cases hd
    · cases hs
  · exact Or.inr ⟨rd'.getD rd, by rw [h]; rfl⟩

theorem encrypt_lt {pk : PublicKey} (hn : 0 < pk.n) (m : Nat) : pk.encrypt m < pk.n := Nat.mod_lt _ hn

theorem encrypt_decrypt_pow {sk : RSA.PrivateKey} (hv : ValidKey sk.pk.n sk.pk.e sk.d sk.primes) {m : Nat} (hm : m < sk.pk.n) :
    (sk.pk.encrypt m) ^ sk.d % sk.pk.n = m := by
  unfold PublicKey.encrypt powMod
  rw [← Nat.pow_mod, ← pow_mul]
  have := validKey_pow hv m
  rw [this, Nat.mod_eq_of_lt hm]

theorem decrypt_encrypt_pow {sk : RSA.PrivateKey} (hv : ValidKey sk.pk.n sk.pk.e sk.d sk.primes) {c : Nat} (hc : c < sk.pk.n) :
    sk.pk.encrypt (c ^ sk.d % sk.pk.n) = c := by
  unfold PublicKey.encrypt powMod
  rw [← Nat.pow_mod, ← pow_mul, Nat.mul_comm]
  have := validKey_pow hv c
  rw [this, Nat.mod_eq_of_lt hc]

theorem rawSign_cases (g : Rng σ) (fuel : Nat) {sk : RSA.PrivateKey} (hv : ValidKey sk.pk.n sk.pk.e sk.d sk.primes) (hk : Computed sk)
    (bl : Bool) (rd : σ) {c : Nat} (hc : c < sk.pk.n) :
    ((bl = true ∧ ¬ Usable g sk.pk.n fuel rd) ∧ rawSign g fuel sk bl rd c = .error .diverge) ∨
      ∃ rd', rawSign g fuel sk bl rd c = .ok (c ^ sk.d % sk.pk.n, rd') := by
  unfold rawSign PrivateKey.decryptAndCheck
  rcases decrypt_cases g fuel hv hk (Nat.le_of_lt hc) (if bl = true then some rd else none) with ⟨⟨s, hs, hd⟩, h⟩ | ⟨rd', h⟩
  · refine Or.inl ⟨?_, by rw [h]; rfl⟩
    split at hs
    · next hb =>
      cases hs
      refine ⟨hb, fun hu => ?_⟩
      obtain ⟨x, hx⟩ := blindLoop_usable hu
      rw [hx] at hd; cases hd
    · cases hs
  · refine Or.inr ⟨rd'.getD rd, ?_⟩
    rw [h]
    simp only [bind, Except.bind]
    rw [if_neg (by rw [decrypt_encrypt_pow hv hc]; exact fun h => h rfl)]

/-- `decrypt`, with everything before the padding check done. -/
theorem decrypt_eq (g : Rng σ) (fuel : Nat) {sk : RSA.PrivateKey} (hv : ValidKey sk.pk.n sk.pk.e sk.d sk.primes) (hk : Computed sk)
    (he : sk.pk.isValid = .ok ()) (o : Obj σ S) (ho : o.kp = .pri sk) (hu : o.blinding = true → Usable g sk.pk.n fuel o.rd)
    (h11 : 11 < sk.pk.modulusLen) (c : Bytes) (hl : c.length = sk.pk.modulusLen) (hc : beNat c ≤ sk.pk.n) :
    ∃ rd', decrypt g fuel o c = (unpad (toBE sk.pk.modulusLen (beNat c ^ sk.d % sk.pk.n))).map fun m => ({ o with rd := rd' }, m) := by
  have hn := validKey_pos hv
  rcases rawDecrypt_cases g fuel hv hk o.blinding o.rd hc with ⟨⟨h1, h2⟩, -⟩ | ⟨rd', h⟩
  · exact absurd (hu h1) h2
  · refine ⟨rd', ?_⟩
    unfold decrypt
    rw [ho]
    simp only [KeyPair.publicKey, KeyPair.privateKey]
    have c1 : ¬ sk.pk.modulusLen ≤ 11 := by omega
    have c2 : ¬ sk.pk.modulusLen ≠ c.length := by omega
    simp only [c1, c2, if_false, he, bind, Except.bind, h]
    have e1 : BigInt.toBeBytes (some ((beNat c ^ sk.d % sk.pk.n : Nat) : Int)) = .ok (natBytes (beNat c ^ sk.d % sk.pk.n)) := rfl
    rw [e1]
    simp only
    have hlt : beNat c ^ sk.d % sk.pk.n < 256 ^ sk.pk.modulusLen := Nat.lt_trans (Nat.mod_lt _ hn) (modulusLen_spec _ hn).2.1
    rw [fitTo_natBytes hlt]
    cases unpad (toBE sk.pk.modulusLen (beNat c ^ sk.d % sk.pk.n)) <;> rfl

/-- What `encrypt` does on a message of admissible length. -/
theorem encrypt_eq (g : Rng σ) (fuel : Nat) (o : Obj σ S) (he : o.kp.publicKey.isValid = .ok ()) (hn : 0 < o.kp.publicKey.n) (msg : Bytes) (h0 : msg ≠ [])
    (h11 : 11 < o.kp.publicKey.modulusLen) (hl : msg.length ≤ o.kp.publicKey.modulusLen - 11) :
    (padLoop g (o.kp.publicKey.modulusLen - msg.length - 3 + 2) fuel [0x00#8, 0x02#8] o.rd = .error .diverge ∧
      encrypt g fuel o msg = .error .diverge) ∨
    ∃ ps rd', IsPS ps ∧ ps.length = o.kp.publicKey.modulusLen - msg.length - 3 ∧
      encrypt g fuel o msg = .ok ({ o with rd := rd' }, toBE o.kp.publicKey.modulusLen (o.kp.publicKey.encrypt (beNat (eme ps msg)))) := by
  have hemp : msg.isEmpty = false := by cases msg with | nil => exact absurd rfl h0 | cons x xs => rfl
  unfold encrypt
  rw [hemp, he]
  simp only [Bool.false_eq_true, if_false, bind, Except.bind]
  rw [if_neg (by omega)]
  rcases padLoop_cases g (o.kp.publicKey.modulusLen - msg.length - 3 + 2) fuel [0x00#8, 0x02#8] o.rd with h | ⟨⟨em, rd'⟩, h⟩
  · refine Or.inl ⟨h, ?_⟩
    rw [h]
  · refine Or.inr ?_
    obtain ⟨pad, h1, h2, h3⟩ := padLoop_ok h
    rw [h1] at h3
    simp only [List.length_append, List.length_cons, List.length_nil] at h3
    refine ⟨pad.take (o.kp.publicKey.modulusLen - msg.length - 3), rd', ⟨?_, fun x hx => h2 x (List.mem_of_mem_take hx)⟩, ?_, ?_⟩
    · rw [List.length_take]; have : 0 < msg.length := List.length_pos_of_ne_nil h0; omega
    · rw [List.length_take]; omega
    · rw [h]
      simp only
      have e : em.take (o.kp.publicKey.modulusLen - msg.length - 3 + 2) ++ [0x00#8] ++ msg =
          eme (pad.take (o.kp.publicKey.modulusLen - msg.length - 3)) msg := by
        rw [h1]; rfl
      rw [e, padTo_natBytes (Nat.lt_trans (encrypt_lt hn _) (modulusLen_spec _ hn).2.1)]

theorem length_eme (ps m : Bytes) : (eme ps m).length = ps.length + m.length + 3 := by simp [eme]; omega

theorem eme_lt {pk : PublicKey} (hn : 0 < pk.n) {ps m : Bytes} (hl : (eme ps m).length = pk.modulusLen) : beNat (eme ps m) < pk.n :=
  em_lt pk hn ([0x02#8] ++ ps ++ [0x00#8] ++ m) hl

end Verif.Model.PKCS1

namespace Verif.Model.PKCS1
open Verif.Model.RSA Verif.Spec.RSA
open Verif.Spec (toBE)
open Verif.Spec.PKCS1 (eme IsPS emsa)

variable {σ S : Type} {d : Digest S} {H : Bytes → Bytes} {bs : Option Nat} {size : Nat} {Abs Chk : S → Bytes → Prop}

theorem length_emsa {k : Nat} {t : Bytes} (h : t.length + 11 ≤ k) : (emsa k t).length = k := by simp [emsa]; omega

theorem emsa_lt {pk : PublicKey} (hn : 0 < pk.n) {t : Bytes} (h : t.length + 11 ≤ pk.modulusLen) : beNat (emsa pk.modulusLen t) < pk.n :=
  em_lt pk hn _ (length_emsa h)

/-- `sign`, with everything done except the private-key operation. -/
theorem sign_eq (L : LawfulDigest d H bs size Abs Chk) (g : Rng σ) (fuel : Nat) {sk : RSA.PrivateKey}
    (hv : ValidKey sk.pk.n sk.pk.e sk.d sk.primes) (hk : Computed sk) (o : Obj σ S) (ho : o.kp = .pri sk)
    (hh : ∃ x, Abs o.hf x ∨ Chk o.hf x) {pre : Bytes} (hp : hashPrefix o.ty = .ok pre) (msg : Bytes) (hm : msg.length < 2 ^ 64)
    (hkl : pre.length + size + 11 ≤ sk.pk.modulusLen) :
    ((o.blinding = true ∧ ¬ Usable g sk.pk.n fuel o.rd) ∧ sign g fuel d o msg = .error .diverge) ∨
      ∃ o' : Obj σ S, sign g fuel d o msg = .ok (o', toBE sk.pk.modulusLen (beNat (emsa sk.pk.modulusLen (pre ++ H msg)) ^ sk.d % sk.pk.n)) ∧
        o'.kp = o.kp ∧ o'.ty = o.ty ∧ ∃ x, Abs o'.hf x ∨ Chk o'.hf x := by
  have hn := validKey_pos hv
  obtain ⟨x, hx⟩ := hh
  have hlen : (pre ++ H msg).length = pre.length + size := by rw [List.length_append, L.length]
  have hlt := emsa_lt hn (t := pre ++ H msg) (by omega)
  obtain ⟨hf', eh, ch⟩ := hashParts_ok L hx [msg] (by simpa using hm)
  have ef : [msg].flatten = msg := by simp
  rw [ef] at eh ch
  have em : [0x00#8, 0x01#8] ++ List.replicate (sk.pk.modulusLen - (pre.length + size) - 3) 0xff#8 ++ [0x00#8] ++ pre ++ H msg =
      emsa sk.pk.modulusLen (pre ++ H msg) := by simp [emsa, L.length]
  unfold sign
  rw [hLen_eq L hx, hp, ho]
  have c1 : ¬ sk.pk.modulusLen < pre.length + size + 11 := by omega
  simp only [bind, Except.bind, KeyPair.privateKey, c1, if_false, eh, em]
  rcases rawSign_cases g fuel hv hk o.blinding o.rd hlt with ⟨h1, h2⟩ | ⟨rd', h⟩
  · refine Or.inl ⟨h1, ?_⟩
    rw [h2]
  · refine Or.inr ⟨{ o with kp := .pri sk, rd := rd', hf := hf' }, ?_, rfl, rfl, _, Or.inr ch⟩
    rw [h]
    simp only
    rw [padTo_natBytes (Nat.lt_trans (Nat.mod_lt _ hn) (modulusLen_spec _ hn).2.1)]

theorem any_ff {n : Nat} {b : Bytes} (hl : b.length = n) : b.any (· ≠ 0xff#8) = false ↔ b = List.replicate n 0xff#8 := by
  rw [List.any_eq_false, List.eq_replicate_iff]
  constructor
  · intro h
    exact ⟨hl, fun x hx => by simpa using h x hx⟩
  · rintro ⟨-, h⟩ x hx
    simpa using h x hx

/-- The checks of `verify` on a buffer of `k` bytes succeed exactly for the right encoding. -/
theorem checks_iff {k h : Nat} {em pre dig : Bytes} (hl : em.length = k) (hd : dig.length = h) (hk : pre.length + h + 11 ≤ k) :
    (em.getD 0 0 = 0x00#8 ∧ em.getD 1 0 = 0x01#8 ∧ (em.take (k - h)).drop (k - (pre.length + h)) = pre ∧
      em.getD (k - (pre.length + h) - 1) 0 = 0x00#8 ∧ (em.take k).drop (k - h) = dig ∧
      (em.drop 2).take (k - (pre.length + h) - 3) = List.replicate (k - (pre.length + h) - 3) 0xff#8) ↔ em = emsa k (pre ++ dig) := by
  constructor
  · rintro ⟨h0, h1, h2, h3, h4, h5⟩
    have ht : (pre ++ dig).length = pre.length + h := by rw [List.length_append, hd]
    -- split the buffer at 2, k - t - 1, k - t, k - h
    have s1 : em = em.take 2 ++ ((em.drop 2).take (k - (pre.length + h) - 3) ++ (em.drop 2).drop (k - (pre.length + h) - 3)) := by
      rw [List.take_append_drop, List.take_append_drop]
    have s2 : (em.drop 2).drop (k - (pre.length + h) - 3) = em.drop (k - (pre.length + h) - 1) := by
      rw [List.drop_drop]; congr 1; omega
    have s3 : em.drop (k - (pre.length + h) - 1) = em.getD (k - (pre.length + h) - 1) 0 :: em.drop (k - (pre.length + h)) := by
      rw [List.drop_eq_getElem_cons (by omega), List.getD_eq_getElem?_getD, List.getElem?_eq_getElem (by omega)]
      simp only [Option.getD_some]
      congr 2
      omega
    have s4 : em.drop (k - (pre.length + h)) = (em.take (k - h)).drop (k - (pre.length + h)) ++ em.drop (k - h) := by
      rw [← List.drop_append_of_le_length (by rw [List.length_take]; omega), List.take_append_drop]
    have s5 : em.drop (k - h) = (em.take k).drop (k - h) := by rw [← hl, List.take_length]
    have s6 : em.take 2 = [em.getD 0 0, em.getD 1 0] := by
      match em, hl with
      | [], hl => simp at hl; omega
      | [a], hl => simp at hl; omega
      | a :: b :: rest, _ => rfl
    rw [s1, s2, s3, s4, s5, h5, h3, h2, h4, s6, h0, h1, emsa, ht]
    simp
  · rintro rfl
    have ht : (pre ++ dig).length = pre.length + h := by rw [List.length_append, hd]
    have e1 : emsa k (pre ++ dig) = ([0x00#8, 0x01#8] ++ List.replicate (k - (pre.length + h) - 3) 0xff#8 ++ [0x00#8]) ++ pre ++ dig := by
      simp [emsa, hd]
    have l1 : ([0x00#8, 0x01#8] ++ List.replicate (k - (pre.length + h) - 3) 0xff#8 ++ [0x00#8]).length = k - (pre.length + h) := by
      simp; omega
    refine ⟨rfl, rfl, ?_, ?_, ?_, ?_⟩
    · rw [e1, List.take_left' (by rw [List.length_append, l1]; omega), List.drop_left' l1]
    · have e2 : emsa k (pre ++ dig) = ([0x00#8, 0x01#8] ++ List.replicate (k - (pre.length + h) - 3) 0xff#8) ++ (0x00#8 :: (pre ++ dig)) := by
        simp [emsa, hd]
      rw [e2, List.getD_eq_getElem?_getD, List.getElem?_append_right (by simp; omega)]
      have : k - (pre.length + h) - 1 - ([0x00#8, 0x01#8] ++ List.replicate (k - (pre.length + h) - 3) 0xff#8).length = 0 := by simp; omega
      rw [this]; rfl
    · rw [List.take_of_length_le (by rw [length_emsa (by omega)]), e1, List.drop_left' (by rw [List.length_append, l1]; omega)]
    · have e3 : (emsa k (pre ++ dig)).drop 2 = List.replicate (k - (pre.length + h) - 3) 0xff#8 ++ ([0x00#8] ++ (pre ++ dig)) := by
        simp [emsa, hd]
      rw [e3, List.take_left' (by simp)]

/-- `verify` accepts exactly when the public-key image of the signature is the encoding of the message. -/
theorem verify_iff (L : LawfulDigest d H bs size Abs Chk) (o : Obj σ S) (hn : 0 < o.kp.publicKey.n) (hh : ∃ x, Abs o.hf x ∨ Chk o.hf x) {pre : Bytes}
    (hp : hashPrefix o.ty = .ok pre) (sig msg : Bytes) (hm : msg.length < 2 ^ 64) (hkl : pre.length + size + 11 ≤ o.kp.publicKey.modulusLen) :
    (toBE o.kp.publicKey.modulusLen (o.kp.publicKey.encrypt (beNat sig)) = emsa o.kp.publicKey.modulusLen (pre ++ H msg) →
      ∃ o' : Obj σ S, verify d o sig msg = .ok o' ∧ o'.kp = o.kp ∧ o'.ty = o.ty ∧ ∃ x, Abs o'.hf x ∨ Chk o'.hf x) ∧
    (toBE o.kp.publicKey.modulusLen (o.kp.publicKey.encrypt (beNat sig)) ≠ emsa o.kp.publicKey.modulusLen (pre ++ H msg) →
      verify d o sig msg = .error (.err .verificationFailed)) := by
  obtain ⟨x, hx⟩ := hh
  obtain ⟨hf', eh, ch⟩ := hashParts_ok L hx [msg] (by simpa using hm)
  have ef : [msg].flatten = msg := by simp
  rw [ef] at eh ch
  have hfit := fitTo_natBytes (Nat.lt_trans (encrypt_lt hn (beNat sig)) (modulusLen_spec _ hn).2.1)
  generalize hem : toBE o.kp.publicKey.modulusLen (o.kp.publicKey.encrypt (beNat sig)) = em at hfit ⊢
  have hl : em.length = o.kp.publicKey.modulusLen := by rw [← hem, Spec.length_toBE]
  have hc := checks_iff (k := o.kp.publicKey.modulusLen) (h := size) (em := em) (pre := pre) (dig := H msg) hl (L.length _) hkl
  generalize hk' : o.kp.publicKey.modulusLen = k at *
  have i0 : index em 0 = .ok (em.getD 0 0) := by rw [index_ok (by omega), List.getD_eq_getElem?_getD, List.getElem?_eq_getElem (by omega)]; rfl
  have i1 : index em 1 = .ok (em.getD 1 0) := by rw [index_ok (by omega), List.getD_eq_getElem?_getD, List.getElem?_eq_getElem (by omega)]; rfl
  have i2 : index em (k - (pre.length + size) - 1) = .ok (em.getD (k - (pre.length + size) - 1) 0) := by
    rw [index_ok (by omega), List.getD_eq_getElem?_getD, List.getElem?_eq_getElem (by omega)]; rfl
  have hany := any_ff (n := k - (pre.length + size) - 3) (b := (em.drop 2).take (k - (pre.length + size) - 3))
    (by rw [List.length_take, List.length_drop]; omega)
  have c1 : ¬ k < pre.length + size + 11 := by omega
  have key : verify d o sig msg =
      if em.getD 0 0 ≠ 0x00#8 ∨ em.getD 1 0 ≠ 0x01#8 ∨ (em.take (k - size)).drop (k - (pre.length + size)) ≠ pre ∨
          em.getD (k - (pre.length + size) - 1) 0 ≠ 0x00#8 then .error (.err .verificationFailed)
      else if (em.take k).drop (k - size) ≠ H msg then .error (.err .verificationFailed)
      else if ((em.drop 2).take (k - (pre.length + size) - 3)).any (· ≠ 0xff#8) then .error (.err .verificationFailed)
      else .ok { o with hf := hf' } := by
    unfold verify
    rw [hLen_eq L hx, hp]
    simp only [bind, Except.bind, hk', c1, if_false, hfit, i0, i1, i2, hl, eh, slice_ok (b := em) (i := k - (pre.length + size)) (j := k - size) (by omega) (by omega),
      slice_ok (b := em) (i := k - size) (j := k) (by omega) (by omega)]
  rw [key]
  constructor
  · intro e
    obtain ⟨h0, h1, h2, h3, h4, h5⟩ := hc.2 e
    refine ⟨{ o with hf := hf' }, ?_, rfl, rfl, _, Or.inr ch⟩
    rw [if_neg (by rw [h0, h1, h2, h3]; simp), if_neg (by rw [h4]; simp), if_neg (by rw [hany.2 h5]; simp)]
  · intro e
    split
    · rfl
    · next h1 =>
      split
      · rfl
      · next h2 =>
        split
        · rfl
        · next h3 =>
          rw [not_or, not_or, not_or, Decidable.not_not, Decidable.not_not, Decidable.not_not, Decidable.not_not] at h1
          exact absurd (hc.1 ⟨h1.1, h1.2.1, h1.2.2.1, h1.2.2.2, Decidable.not_not.1 h2, hany.1 (by simpa using h3)⟩) e

end Verif.Model.PKCS1
