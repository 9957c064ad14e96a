import Verif.Props.OAEPText
import Verif.Props.Accept
import Verif.Props.PSS
import Verif.Proof.Root

/-! Property C108 (one RSA key for decryption and for signatures) -/

namespace Verif.Props
open Verif.Model Verif.Model.RSA Verif.Spec.RSA
open Verif.Spec (toBE Manger.attack Manger.question Manger.root)
open Verif.Spec.PKCS1 (emsa digestInfo pss BadSeparator)
open Verif.Model.PSS (relShift)

theorem run_map {α β : Type} (f : α → β) (o : Bytes → Bool) (t : Spec.Ask α) : (t.map f).run o = f (t.run o) := by
  induction t with
  | done a => rfl
  | ask q k ih => exact ih (o q)

theorem asked_map {α β : Type} (f : α → β) (o : Bytes → Bool) (t : Spec.Ask α) : (t.map f).asked o = t.asked o := by
  induction t with
  | done a => rfl
  | ask q k ih => exact congrArg (q :: ·) (ih (o q))

/-- Raising to the public power undoes raising to the private one. -/
theorem rsaep_root {n e dd : Nat} {ps : List Nat} (hv : ValidKey n e dd ps) {y : Nat} (hy : y < n) : rsaep n e (rsadp n dd y) = y := by
  rw [rsaep, rsadp, ← Nat.pow_mod, ← pow_mul, Nat.mul_comm dd e]
  exact Eq.trans (validKey_pow hv y) (Nat.mod_eq_of_lt hy)

theorem root_lt {n : Nat} (hn : 0 < n) (dd y : Nat) : rsadp n dd y < n := Nat.mod_lt _ hn

theorem root_question {sk : RSA.PrivateKey} (hv : ValidKey sk.pk.n sk.pk.e sk.d sk.primes) (y r f : Nat) :
    rsadp sk.pk.n sk.d (beNat (Manger.question sk.pk.modulusLen sk.pk.n sk.pk.e (r ^ sk.pk.e * y % sk.pk.n) f)) =
        f * (r * rsadp sk.pk.n sk.d y % sk.pk.n) % sk.pk.n := by
  have hn := validKey_pos hv
  obtain ⟨k0, k1, -⟩ := modulusLen_spec sk.pk hn
  have hq : beNat (Manger.question sk.pk.modulusLen sk.pk.n sk.pk.e (r ^ sk.pk.e * y % sk.pk.n) f) = f ^ sk.pk.e * (r ^ sk.pk.e * y) % sk.pk.n := by
    rw [Spec.Manger.question, Spec.beNat_toBE, Nat.mod_eq_of_lt (Nat.lt_trans (Nat.mod_lt _ hn) k1), Nat.mul_mod, Nat.mod_mod, ← Nat.mul_mod]
  rw [hq, rsadp, ← Nat.pow_mod, rsadp, Nat.mul_mod_mod, ← Nat.mul_assoc f r, Nat.mul_mod_mod,
    show (f ^ sk.pk.e * (r ^ sk.pk.e * y)) ^ sk.d = (f * r) ^ (sk.pk.e * sk.d) * y ^ sk.d by rw [pow_mul]; ring]
  exact (validKey_pow hv (f * r)).mul_right _

section
variable {σ S : Type} {d : Digest S} {H : Bytes → Bytes} {bs : Option Nat} {size : Nat} {Abs Chk : S → Bytes → Prop}

/-- The bit the program sees for the factor `f`. -/
theorem badFormat_question (L : LawfulDigest d H bs size Abs Chk) (hs : 0 < size) (g : Rng σ) (fuel : Nat) (sk : RSA.PrivateKey)
    (hv : ValidKey sk.pk.n sk.pk.e sk.d sk.primes) (hkc : Computed sk) (he : sk.pk.isValid = .ok ()) (label : Bytes) (b : Bytes → OAEP.Obj σ S)
    (hb : ∀ q, (b q).kp = .pri sk ∧ (b q).label = label ∧ GoodState Abs Chk (b q).hf ∧ ((b q).blinding = true → Usable g sk.pk.n fuel (b q).rd))
    (hlabl : label.length < 2 ^ 64) (hk : sk.pk.modulusLen + 4 < 2 ^ 64) (hk2 : 2 * size + 2 ≤ sk.pk.modulusLen)
    (y r f : Nat) (hcl : ¬ BadSeparator H size label (toBE sk.pk.modulusLen (f * (r * rsadp sk.pk.n sk.d y % sk.pk.n) % sk.pk.n))) :
    badFormat g fuel d b (Manger.question sk.pk.modulusLen sk.pk.n sk.pk.e (r ^ sk.pk.e * y % sk.pk.n) f) =
      decide (256 ^ (sk.pk.modulusLen - 1) ≤ f * (r * rsadp sk.pk.n sk.d y % sk.pk.n) % sk.pk.n) := by
  have hn := validKey_pos hv
  obtain ⟨k0, k1, -⟩ := modulusLen_spec sk.pk hn
  have hdec := root_question hv y r f
  have hql : (Manger.question sk.pk.modulusLen sk.pk.n sk.pk.e (r ^ sk.pk.e * y % sk.pk.n) f).length = sk.pk.modulusLen := Spec.length_toBE _ _
  have hqn : beNat (Manger.question sk.pk.modulusLen sk.pk.n sk.pk.e (r ^ sk.pk.e * y % sk.pk.n) f) ≤ sk.pk.n := by
    rw [Spec.Manger.question, Spec.beNat_toBE, Nat.mod_eq_of_lt (Nat.lt_trans (Nat.mod_lt _ hn) k1)]; exact Nat.le_of_lt (Nat.mod_lt _ hn)
  generalize Manger.question sk.pk.modulusLen sk.pk.n sk.pk.e (r ^ sk.pk.e * y % sk.pk.n) f = q at *
  obtain ⟨b1, b2, b3, b4⟩ := hb q
  have key := (C97_text_exact L hs g fuel sk hv hkc he (b q) b1 b3 (by rw [b2]; exact hlabl) b4 hk hk2 q
    (fun h => by rw [h] at hql; simp at hql; omega) (by omega) hqn).1
  rw [b2, hdec, or_iff_left hcl] at key
  unfold badFormat
  rw [Bool.eq_iff_iff, beq_iff_eq, decide_eq_true_iff]
  exact key

/-- No clash among the factors the program comes to, no clash among its questions. -/
theorem root_clash (L : LawfulDigest d H bs size Abs Chk) (hs : 0 < size) (g : Rng σ) (fuel : Nat) (sk : RSA.PrivateKey)
    (hv : ValidKey sk.pk.n sk.pk.e sk.d sk.primes) (hkc : Computed sk) (he : sk.pk.isValid = .ok ()) (label : Bytes) (b : Bytes → OAEP.Obj σ S)
    (hb : ∀ q, (b q).kp = .pri sk ∧ (b q).label = label ∧ GoodState Abs Chk (b q).hf ∧ ((b q).blinding = true → Usable g sk.pk.n fuel (b q).rd))
    (hlabl : label.length < 2 ^ 64) (hk : sk.pk.modulusLen + 4 < 2 ^ 64) (hk2 : 2 * size + 2 ≤ sk.pk.modulusLen) (y r ri N : Nat)
    (h : ∀ f ∈ Spec.Manger.attackF sk.pk.modulusLen sk.pk.n (r * rsadp sk.pk.n sk.d y % sk.pk.n) N,
      ¬ BadSeparator H size label (toBE sk.pk.modulusLen (f * (r * rsadp sk.pk.n sk.d y % sk.pk.n) % sk.pk.n))) :
    ∀ q ∈ (Manger.root sk.pk.modulusLen sk.pk.n sk.pk.e y r ri N).asked (badFormat g fuel d b),
      ¬ BadSeparator H size label (toBE sk.pk.modulusLen (rsadp sk.pk.n sk.d (beNat q))) := by
  rw [Manger.root, asked_map, Spec.Manger.attack_asked (x := r * rsadp sk.pk.n sk.d y % sk.pk.n)
    fun f hf => badFormat_question L hs g fuel sk hv hkc he label b hb hlabl hk hk2 y r f (h f hf)]
  intro q hq
  obtain ⟨f, hf, rfl⟩ := List.mem_map.1 hq
  rw [root_question hv]
  exact h f hf

/-- C108: the error texts of an OAEP receiver compute every private operation of its key: for every number `y`, not just for ciphertexts, the program finds
`y^d mod n` with at most `8 (N + 1) (k - 1) + 258` questions. Its factor must bring the root below the power of 256 under the modulus (`C108_factors` counts
the factors that do); the provisos are those of C97. -/
theorem C108_root_refuted (L : LawfulDigest d H bs size Abs Chk) (hs : 0 < size) (g : Rng σ) (fuel : Nat) (sk : RSA.PrivateKey)
    (hv : ValidKey sk.pk.n sk.pk.e sk.d sk.primes) (hkc : Computed sk) (he : sk.pk.isValid = .ok ()) (label : Bytes) (b : Bytes → OAEP.Obj σ S)
    (hb : ∀ q, (b q).kp = .pri sk ∧ (b q).label = label ∧ GoodState Abs Chk (b q).hf ∧ ((b q).blinding = true → Usable g sk.pk.n fuel (b q).rd))
    (hlabl : label.length < 2 ^ 64) (hk : sk.pk.modulusLen + 4 < 2 ^ 64) (hk2 : 2 * size + 2 ≤ sk.pk.modulusLen)
    (h3 : 3 * 256 ^ (sk.pk.modulusLen - 1) ≤ sk.pk.n)
    (y r ri : Nat) (hr : r * ri ≡ 1 [MOD sk.pk.n]) (N : Nat) (hN : 8 ≤ N)
    (hNm : 2 * 256 ^ (sk.pk.modulusLen - 1) ≤ N * (256 ^ (sk.pk.modulusLen - 1) - r * rsadp sk.pk.n sk.d y % sk.pk.n))
    (t : Spec.Ask Nat) (ht : t = Manger.root sk.pk.modulusLen sk.pk.n sk.pk.e y r ri N)
    (hclash : ∀ q ∈ t.asked (badFormat g fuel d b), ¬ BadSeparator H size label (toBE sk.pk.modulusLen (rsadp sk.pk.n sk.d (beNat q)))) :
    t.run (badFormat g fuel d b) = rsadp sk.pk.n sk.d y ∧
    (t.asked (badFormat g fuel d b)).length ≤ 8 * (N + 1) * (sk.pk.modulusLen - 1) + 258 := by
  have hn := validKey_pos hv
  obtain ⟨k0, k1, -⟩ := modulusLen_spec sk.pk hn
  have hB : 0 < 256 ^ (sk.pk.modulusLen - 1) := Nat.pow_pos (by decide)
  have hm : r * rsadp sk.pk.n sk.d y % sk.pk.n < 256 ^ (sk.pk.modulusLen - 1) := by
    by_contra hc
    rw [Nat.sub_eq_zero_of_le (Nat.le_of_not_lt hc), Nat.mul_zero] at hNm
    omega
  subst ht
  rw [Manger.root, asked_map] at hclash ⊢
  rw [run_map]
  have hrun : (Manger.attack sk.pk.modulusLen sk.pk.n sk.pk.e (r ^ sk.pk.e * y % sk.pk.n) N).run (badFormat g fuel d b) =
      r * rsadp sk.pk.n sk.d y % sk.pk.n := by
    refine Spec.Manger.attack_ok k1 h3 hm hN hNm ?_
    intro f hf
    have hcl := hclash _ hf
    exact badFormat_question L hs g fuel sk hv hkc he label b hb hlabl hk hk2 y r f
      (by rw [root_question hv] at hcl; exact hcl)
  refine ⟨?_, ?_⟩
  · rw [hrun, Nat.mod_mul_mod, show r * rsadp sk.pk.n sk.d y * ri = r * ri * rsadp sk.pk.n sk.d y by ring]
    exact Eq.trans (hr.mul_right _) (by rw [Nat.one_mul]; exact Nat.mod_mod _ _)
  · refine Nat.le_trans (Spec.Manger.length_asked _ _) (Nat.le_trans Spec.Manger.attack_depth ?_)
    rw [Nat.mul_left_comm, Nat.mul_assoc]

/-- C108: so the same object forges: for a message of the attacker's choice the program finds the signature that an RSASSA-PKCS1-v1_5 object with this key
would make, and a verifier takes it. The two objects may use different hash functions, states and sources of randomness. -/
theorem C108_pkcs1_refuted {S' : Type} {d' : Digest S'} {H' : Bytes → Bytes} {bs' : Option Nat} {size' : Nat} {Abs' Chk' : S' → Bytes → Prop}
    (L : LawfulDigest d H bs size Abs Chk) (hs : 0 < size) (L' : LawfulDigest d' H' bs' size' Abs' Chk') (g : Rng σ) (fuel : Nat) (sk : RSA.PrivateKey)
    (hv : ValidKey sk.pk.n sk.pk.e sk.d sk.primes) (hkc : Computed sk) (he : sk.pk.isValid = .ok ()) (label : Bytes) (b : Bytes → OAEP.Obj σ S)
    (hb : ∀ q, (b q).kp = .pri sk ∧ (b q).label = label ∧ GoodState Abs Chk (b q).hf ∧ ((b q).blinding = true → Usable g sk.pk.n fuel (b q).rd))
    (hlabl : label.length < 2 ^ 64) (hk : sk.pk.modulusLen + 4 < 2 ^ 64) (hk2 : 2 * size + 2 ≤ sk.pk.modulusLen)
    (h3 : 3 * 256 ^ (sk.pk.modulusLen - 1) ≤ sk.pk.n)
    (v : PKCS1.Obj σ S') (hvk : v.kp.publicKey = sk.pk) (hvh : GoodState Abs' Chk' v.hf) (alg : Bytes) (ha : algOf v.ty = some (alg, size'))
    (msg : Bytes) (hm : msg.length < 2 ^ 64) (hkl : (digestInfo alg (H' msg)).length + 11 ≤ sk.pk.modulusLen)
    (y : Nat) (hy : y = beNat (emsa sk.pk.modulusLen (digestInfo alg (H' msg))))
    (r ri : Nat) (hr : r * ri ≡ 1 [MOD sk.pk.n]) (N : Nat) (hN : 8 ≤ N)
    (hNm : 2 * 256 ^ (sk.pk.modulusLen - 1) ≤ N * (256 ^ (sk.pk.modulusLen - 1) - r * rsadp sk.pk.n sk.d y % sk.pk.n))
    (t : Spec.Ask Nat) (ht : t = Manger.root sk.pk.modulusLen sk.pk.n sk.pk.e y r ri N)
    (hclash : ∀ q ∈ t.asked (badFormat g fuel d b), ¬ BadSeparator H size label (toBE sk.pk.modulusLen (rsadp sk.pk.n sk.d (beNat q)))) :
    (∃ v', PKCS1.verify d' v (toBE sk.pk.modulusLen (t.run (badFormat g fuel d b))) msg = .ok v') ∧
    (∀ {σ' : Type} (g' : Rng σ') (fuel' : Nat) (o : PKCS1.Obj σ' S'), o.kp = .pri sk → o.ty = v.ty → GoodState Abs' Chk' o.hf →
      (o.blinding = true → Usable g' sk.pk.n fuel' o.rd) →
      ∃ o', PKCS1.sign g' fuel' d' o msg = .ok (o', toBE sk.pk.modulusLen (t.run (badFormat g fuel d b)))) := by
  have hn := validKey_pos hv
  obtain ⟨k0, k1, -⟩ := modulusLen_spec sk.pk hn
  rw [(C108_root_refuted L hs g fuel sk hv hkc he label b hb hlabl hk hk2 h3 y r ri hr N hN hNm t ht hclash).1]
  have hlt : y < sk.pk.n := by rw [hy]; exact PKCS1.emsa_lt hn hkl
  refine ⟨?_, fun g' fuel' o h1 h2 h3 h4 => ?_⟩
  · refine ((C46_verify_partial L' v (by rw [hvk]; exact hn) hvh alg ha _ msg hm (by rw [hvk]; exact hkl)).1).2 ?_
    rw [hvk, Spec.beNat_toBE, Nat.mod_eq_of_lt (Nat.lt_trans (root_lt hn sk.d y) k1), rsaep_root hv hlt, hy,
      toBE_em (PKCS1.length_emsa hkl)]
  · obtain ⟨o', e, -⟩ := C46_sign L' g' fuel' sk hv hkc o h1 h3 h4 alg (by rw [h2]; exact ha) msg hm hkl
    exact ⟨o', by rw [e, hy]⟩

/-- C108: and RSASSA-PSS, with any salt of the right length: the verifier takes the forged signature (in a release build, for the moduli for which signatures
verify at all; see C48 and C65). -/
theorem C108_pss_refuted {S' : Type} {d' : Digest S'} {H' : Bytes → Bytes} {bs' : Option Nat} {size' : Nat} {Abs' Chk' : S' → Bytes → Prop}
    (L : LawfulDigest d H bs size Abs Chk) (hs : 0 < size) (L' : LawfulDigest d' H' bs' size' Abs' Chk') (hs' : 0 < size') (hsz : size' + 4 < 2 ^ 64)
    (g : Rng σ) (fuel : Nat) (sk : RSA.PrivateKey)
    (hv : ValidKey sk.pk.n sk.pk.e sk.d sk.primes) (hkc : Computed sk) (he : sk.pk.isValid = .ok ()) (label : Bytes) (b : Bytes → OAEP.Obj σ S)
    (hb : ∀ q, (b q).kp = .pri sk ∧ (b q).label = label ∧ GoodState Abs Chk (b q).hf ∧ ((b q).blinding = true → Usable g sk.pk.n fuel (b q).rd))
    (hlabl : label.length < 2 ^ 64) (hk : sk.pk.modulusLen + 4 < 2 ^ 64) (hk2 : 2 * size + 2 ≤ sk.pk.modulusLen)
    (h3 : 3 * 256 ^ (sk.pk.modulusLen - 1) ≤ sk.pk.n)
    (v : PSS.Obj σ S') (hvk : v.kp.publicKey = sk.pk) (hvh : GoodState Abs' Chk' v.hf) (msg salt : Bytes) (hm : msg.length < 2 ^ 64)
    (hsl : salt.length = v.slen) (hbl : bitsLen sk.pk.n < 2 ^ 64) (hl : size' + v.slen + 2 ≤ (bitsLen sk.pk.n - 1 + 7) / 8)
    (h8 : (bitsLen sk.pk.n - 1) % 8 ≠ 0) (hsh : relShift (bitsLen sk.pk.n - 1) = unused (bitsLen sk.pk.n - 1))
    (y : Nat) (hy : y = beNat (pss H' size' (bitsLen sk.pk.n - 1) salt msg))
    (r ri : Nat) (hr : r * ri ≡ 1 [MOD sk.pk.n]) (N : Nat) (hN : 8 ≤ N)
    (hNm : 2 * 256 ^ (sk.pk.modulusLen - 1) ≤ N * (256 ^ (sk.pk.modulusLen - 1) - r * rsadp sk.pk.n sk.d y % sk.pk.n))
    (t : Spec.Ask Nat) (ht : t = Manger.root sk.pk.modulusLen sk.pk.n sk.pk.e y r ri N)
    (hclash : ∀ q ∈ t.asked (badFormat g fuel d b), ¬ BadSeparator H size label (toBE sk.pk.modulusLen (rsadp sk.pk.n sk.d (beNat q)))) :
    ∃ v', PSS.verify false d' v (toBE sk.pk.modulusLen (t.run (badFormat g fuel d b))) msg = .ok v' := by
  have hn := validKey_pos hv
  obtain ⟨k0, k1, -⟩ := modulusLen_spec sk.pk hn
  rw [(C108_root_refuted L hs g fuel sk hv hkc he label b hb hlabl hk hk2 h3 y r ri hr N hN hNm t ht hclash).1]
  have hlt : y < sk.pk.n := by
    rw [hy]
    exact Nat.lt_of_lt_of_le (PSS.pss_lt L'.length hs' (by omega) (by rw [hsl]; exact hl)) (Nat.lt_size.1 (by unfold bitsLen at *; omega))
  refine ((C65_exact_partial L' hs' hsz v hvh msg _ hm (by rw [hvk]; exact hbl) (by rw [hvk]; exact hl) (by rw [hvk]; exact h8)
    (by rw [hvk]; exact hsh)).1).2 ?_
  rw [hvk]
  refine ⟨Spec.length_toBE _ _, salt, hsl, ?_⟩
  rw [Spec.beNat_toBE, Nat.mod_eq_of_lt (Nat.lt_trans (root_lt hn sk.d y) k1), rsaep_root hv hlt, hy]

/-- C108: how many factors serve: if the root has no factor in common with the modulus, multiplying by it permutes the numbers below the modulus, so as many
factors lead into a set of numbers as the set has members. One number in 256 at least is below the power of 256 under the modulus. -/
theorem C108_factors (n s : Nat) (hs : Nat.Coprime s n) (good : Nat → Bool) :
    ((List.range n).filter fun r => good (r * s % n)).length = ((List.range n).filter good).length := by
  have hp : ((List.range n).map fun r => r * s % n).Perm (List.range n) := by
    refine (List.perm_ext_iff_of_nodup ?_ List.nodup_range).2 fun x => ?_
    · refine List.Nodup.map_on (fun a ha b hb h => ?_) List.nodup_range
      have := Nat.ModEq.cancel_right_of_coprime (by rw [Nat.gcd_comm]; exact hs) (show a * s ≡ b * s [MOD n] from h)
      rw [List.mem_range] at ha hb
      rwa [Nat.ModEq, Nat.mod_eq_of_lt ha, Nat.mod_eq_of_lt hb] at this
    · constructor
      · intro h
        obtain ⟨r, hr, rfl⟩ := List.mem_map.1 h
        exact List.mem_range.2 (Nat.mod_lt _ (by have := List.mem_range.1 hr; omega))
      · intro h
        have hx := List.mem_range.1 h
        rcases Nat.lt_or_ge 1 n with h1 | h1
        · obtain ⟨si, -, hsi⟩ := Nat.exists_mul_mod_eq_one_of_coprime hs h1
          refine List.mem_map.2 ⟨x * si % n, List.mem_range.2 (Nat.mod_lt _ (by omega)), ?_⟩
          rw [Nat.mod_mul_mod, show x * si * s = x * (s * si) by ring, Nat.mul_mod, hsi, Nat.mul_one, Nat.mod_mod, Nat.mod_eq_of_lt hx]
        · have : n = 1 := by omega
          subst this
          exact List.mem_map.2 ⟨0, by simp, by omega⟩
  rw [← (hp.filter good).length_eq, List.filter_map, List.length_map]
  rfl

/-- C108: a receiver of RSAES-PKCS1-v1_5 says as much by accepting and refusing: for a given public key one function takes the answers to questions that
anyone can compute from the message to the signature which an object with this key makes of it. -/
theorem C108_answers_refuted {S' : Type} {d' : Digest S'} {H' : Bytes → Bytes} {bs' : Option Nat} {size' : Nat} {Abs' Chk' : S' → Bytes → Prop}
    (L' : LawfulDigest d' H' bs' size' Abs' Chk') (pk : RSA.PublicKey) (h11 : 11 < pk.modulusLen) :
    ∃ F : (Nat → Bool) → Bytes, ∀ (g : Rng σ) (fuel : Nat) (sk : RSA.PrivateKey), sk.pk = pk → ValidKey sk.pk.n sk.pk.e sk.d sk.primes → Computed sk →
      sk.pk.isValid = .ok () → ∀ b : Bytes → PKCS1.Obj σ S,
      (∀ q, (b q).kp = .pri sk ∧ ((b q).blinding = true → Usable g sk.pk.n fuel (b q).rd)) →
      ∀ (o : PKCS1.Obj σ S') (alg msg : Bytes), o.kp = .pri sk → GoodState Abs' Chk' o.hf → (o.blinding = true → Usable g sk.pk.n fuel o.rd) →
      algOf o.ty = some (alg, size') → msg.length < 2 ^ 64 → (digestInfo alg (H' msg)).length + 11 ≤ pk.modulusLen →
      Nat.Coprime (beNat (emsa pk.modulusLen (digestInfo alg (H' msg)))) pk.n →
      ∃ o', PKCS1.sign g fuel d' o msg = .ok (o', F fun f => accepts g fuel b
        (Manger.question pk.modulusLen pk.n pk.e (beNat (emsa pk.modulusLen (digestInfo alg (H' msg)))) f)) := by
  obtain ⟨F, hF⟩ := C102_determined_refuted (σ := σ) (S := S) pk h11
  refine ⟨fun ans => toBE pk.modulusLen (F ans), ?_⟩
  rintro g fuel sk rfl hv hk he b hb o alg msg h1 h2 h3 h4 h5 h6 h7
  have hn := validKey_pos hv
  have hlt := PKCS1.emsa_lt (pk := sk.pk) hn h6
  obtain ⟨o', e, -⟩ := C46_sign L' g fuel sk hv hk o h1 h2 h3 alg h4 msg h5 h6
  refine ⟨o', ?_⟩
  have := hF g fuel sk rfl hv hk he b hb (rsadp sk.pk.n sk.d (beNat (emsa sk.pk.modulusLen (digestInfo alg (H' msg))))) (Nat.mod_lt _ hn)
    (by rw [rsadp, Nat.coprime_iff_gcd_eq_one, ← Nat.gcd_rec, Nat.gcd_comm]; exact h7.pow_left _)
  rw [rsaep_root hv hlt] at this
  rw [e, ← this]

/-- C108: the other way round a signing object gives nothing away: what it returns for a message is the decryption of one number only: a ciphertext in
the range is opened by the signature of a message exactly if it is the encoding `00 01 ff … ff 00 DigestInfo` of that message. -/
theorem C108_sign_partial {S' : Type} {d' : Digest S'} {H' : Bytes → Bytes} {bs' : Option Nat} {size' : Nat} {Abs' Chk' : S' → Bytes → Prop}
    (L' : LawfulDigest d' H' bs' size' Abs' Chk') (g : Rng σ) (fuel : Nat) (sk : RSA.PrivateKey)
    (hv : ValidKey sk.pk.n sk.pk.e sk.d sk.primes) (hkc : Computed sk) (o o' : PKCS1.Obj σ S') (ho : o.kp = .pri sk) (hh : GoodState Abs' Chk' o.hf)
    (hu : o.blinding = true → Usable g sk.pk.n fuel o.rd) (alg : Bytes) (ha : algOf o.ty = some (alg, size')) (msg sig : Bytes)
    (hm : msg.length < 2 ^ 64) (hkl : (digestInfo alg (H' msg)).length + 11 ≤ sk.pk.modulusLen) (h : PKCS1.sign g fuel d' o msg = .ok (o', sig))
    (c : Bytes) (hcl : c.length = sk.pk.modulusLen) (hc : beNat c < sk.pk.n) :
    rsadp sk.pk.n sk.d (beNat c) = beNat sig ↔ c = emsa sk.pk.modulusLen (digestInfo alg (H' msg)) := by
  have hn := validKey_pos hv
  obtain ⟨k0, k1, -⟩ := modulusLen_spec sk.pk hn
  obtain ⟨o2, e, -⟩ := C46_sign L' g fuel sk hv hkc o ho hh hu alg ha msg hm hkl
  rw [e] at h
  cases h
  rw [Spec.beNat_toBE, Nat.mod_eq_of_lt (Nat.lt_trans (root_lt hn sk.d _) k1)]
  constructor
  · intro h
    have := congrArg (rsaep sk.pk.n sk.pk.e) h
    rw [rsaep_root hv hc, rsaep_root hv (PKCS1.emsa_lt hn hkl)] at this
    exact beNat_inj (by rw [hcl, PKCS1.length_emsa hkl]) this
  · rintro rfl; rfl

end

/-! ## Examples -/

/-- A key of 512 bits made of small primes with small exponents. -/
def useKey : RSA.PrivateKey :=
  ⟨⟨10170533764764533663531539843930202241777637652149403238868577721801764171276042590231120736907046089553790337073511412756091580915282619866549549574022533, 1271⟩,
    1031,
    [3, 7, 11, 13, 17, 19, 29, 31, 37, 41, 43, 53, 61, 71, 73, 79, 97, 101, 113, 127, 131, 157, 181, 193, 211, 241, 281, 313, 337, 401, 521, 631, 673, 701,
      937, 1051, 1171, 1249, 1301, 1601, 1801, 1873, 1951, 2017, 2081, 2341, 2521, 2731, 3361, 4801, 5851, 6301, 6553, 8191, 8737, 11701, 14401, 14561,
      15601], Precomputed.nan⟩

theorem useKey_valid : ValidKey useKey.pk.n useKey.pk.e useKey.d useKey.primes where
  two := by decide
  prime := by simp only [useKey, List.forall_mem_cons, List.not_mem_nil, false_implies, implies_true, and_true]; norm_num
  odd := by simp only [useKey, List.forall_mem_cons, List.not_mem_nil, false_implies, implies_true, and_true]; norm_num
  distinct := by decide
  prod := by decide +kernel
  inv := by unfold Nat.ModEq; decide +kernel

theorem useKey_bits : bitsLen useKey.pk.n = 512 := Nat.le_antisymm (Nat.size_le.2 (by decide +kernel)) (Nat.lt_size.2 (by decide +kernel))

theorem useKey_len : useKey.pk.modulusLen = 64 := by
  have := useKey_bits
  unfold PublicKey.modulusLen
  omega

/-- A hash function for the receiver: sixteen bytes. -/
def toyHash16 (m : Bytes) : Bytes := toBE 16 (m.foldl (fun a x => 257 * a + x.toNat) 42 * 3141592653589793238462643383279502884197)

def toyDigest16 : Digest Bytes where
  blockSize := fun _ => none
  bitsLen := fun _ => 128
  write := fun s x => .ok (s ++ x)
  checksum := fun s => .ok (s, toyHash16 s)
  reset := fun _ => .ok []

theorem toyDigest16_lawful : LawfulDigest toyDigest16 toyHash16 none 16 (fun s m => s = m) (fun s m => s = m) where
  write := by rintro s m x rfl -; exact ⟨_, rfl, rfl⟩
  checksum := by rintro s m rfl -; exact ⟨_, rfl, rfl⟩
  again := by rintro s m rfl; rfl
  reset := fun s m _ => ⟨_, rfl, rfl⟩
  blockSize := fun s m _ => rfl
  bitsLen := fun s m _ => rfl
  length := fun m => Spec.length_toBE _ _

/-- The receiver. -/
def useOaep : OAEP.Obj Unit Bytes := ⟨.pri useKey, [], (), [1#8, 2#8], false⟩

/-- The encoding of the message `hi` with MD5. -/
def useY : Nat := 409173825987017733751648712103449894027080255755383098685411421010075482238630254552427056562390359715846021182540529616797462663858577025234228083771

theorem useY_eq : useY = beNat (emsa 64 (digestInfo Spec.PKCS1.oidMD5 (Spec.MD5.hash [0x68#8, 0x69#8]))) := by decide +kernel

/-- The factor 863 and its inverse. -/
def useRi : Nat := 5727554356518613395685200885457796395717186441419015033708144580296242627161247623235602176288324912541300236173495419002851110457505623702367417257213153

theorem use_x : 863 * rsadp useKey.pk.n useKey.d useY % useKey.pk.n =
    21544960016379515052424787825001812735493083430017631368959651449554955696671398111930464332083063978548606690154079929806683281648321684432516040964583 := by
  decide +kernel

theorem use_clash : ∀ f ∈ Spec.Manger.attackF 64 useKey.pk.n (863 * rsadp useKey.pk.n useKey.d useY % useKey.pk.n) 8,
    ¬ BadSeparator toyHash16 16 [1#8, 2#8] (toBE 64 (f * (863 * rsadp useKey.pk.n useKey.d useY % useKey.pk.n) % useKey.pk.n)) := by
  rw [use_x]
  decide +kernel

theorem useOaep_hb (_ : Bytes) : useOaep.kp = .pri useKey ∧ useOaep.label = [1#8, 2#8] ∧
    GoodState (fun s m => s = m) (fun s m => s = m) useOaep.hf ∧ (useOaep.blinding = true → Usable wordRng useKey.pk.n 1 useOaep.rd) :=
  ⟨rfl, rfl, ⟨[], Or.inl rfl⟩, fun h => by cases h⟩

/-- The hypotheses of `C108_root_refuted` and `C108_pkcs1_refuted` are met: the signature of the message `hi`. -/
example : ∃ t : Spec.Ask Nat, t = Manger.root 64 useKey.pk.n useKey.pk.e useY 863 useRi 8 ∧
    ∃ v', PKCS1.verify MD5.digest (⟨.pub useKey.pk, (), MD5.new, false, .md5⟩ : PKCS1.Obj Unit (MD.State MD5.Quad))
      (toBE 64 (t.run (badFormat wordRng 1 toyDigest16 fun _ => useOaep))) [0x68#8, 0x69#8] = .ok v' := by
  have := C108_pkcs1_refuted toyDigest16_lawful (by decide) MD5.lawful wordRng 1 useKey useKey_valid (Or.inl rfl) (by decide +kernel) [1#8, 2#8]
    (fun _ => useOaep) useOaep_hb (by decide) (by rw [useKey_len]; decide) (by rw [useKey_len]; decide) (by rw [useKey_len]; decide +kernel)
    (⟨.pub useKey.pk, (), MD5.new, false, .md5⟩ : PKCS1.Obj Unit (MD.State MD5.Quad)) rfl ⟨[], Or.inl (MD.abs_new MD5.params (by decide) MD5.init)⟩
    Spec.PKCS1.oidMD5 rfl [0x68#8, 0x69#8] (by decide) (by rw [useKey_len]; decide +kernel) useY (by rw [useKey_len]; exact useY_eq) 863 useRi
    (by unfold Nat.ModEq; decide +kernel) 8 (by decide) (by rw [useKey_len]; decide +kernel) _ rfl (root_clash toyDigest16_lawful (by decide) wordRng 1 useKey
      useKey_valid (Or.inl rfl) (by decide +kernel) [1#8, 2#8] (fun _ => useOaep) useOaep_hb (by decide) (by rw [useKey_len]; decide)
      (by rw [useKey_len]; decide) _ _ _ 8 (by rw [useKey_len]; exact use_clash))
  rw [useKey_len] at this
  exact ⟨_, rfl, this.1⟩

/-- The encoding of the message `hi` for RSASSA-PSS with MD5 and the salt `07 07 … 07`. -/
def useZ : Nat := 4944444091410458095812371871487826946751291529486028410892087333071484344374183534976079701046273326181963119350676893742789020378439304077635670560323260

theorem useZ_eq : useZ = beNat (pss Spec.MD5.hash 16 511 (List.replicate 16 7#8) [0x68#8, 0x69#8]) := by decide +kernel

def useZi : Nat := 4763520333538031378975330904716692915212204980875234056002538456390308609389765223033474790498780830768825383838867300962179294265991038064037176053568483

theorem use_pss_x : 1217 * rsadp useKey.pk.n useKey.d useZ % useKey.pk.n =
    8502991220727723148935992383939216160442772011675280975799393754255555892762553107151750223087544076413298751974550580618120456272104597539151810572204 := by
  decide +kernel

theorem use_clash_pss : ∀ f ∈ Spec.Manger.attackF 64 useKey.pk.n (1217 * rsadp useKey.pk.n useKey.d useZ % useKey.pk.n) 8,
    ¬ BadSeparator toyHash16 16 [1#8, 2#8] (toBE 64 (f * (1217 * rsadp useKey.pk.n useKey.d useZ % useKey.pk.n) % useKey.pk.n)) := by
  rw [use_pss_x]
  decide +kernel

/-- The hypotheses of `C108_pss_refuted` are met. -/
example : ∃ t : Spec.Ask Nat, t = Manger.root 64 useKey.pk.n useKey.pk.e useZ 1217 useZi 8 ∧
    ∃ v', PSS.verify false MD5.digest (md5Pss useKey) (toBE 64 (t.run (badFormat wordRng 1 toyDigest16 fun _ => useOaep))) [0x68#8, 0x69#8] = .ok v' := by
  obtain ⟨h8, hsh⟩ := pss_512 (n := bitsLen useKey.pk.n) (by rw [useKey_bits]) (by rw [useKey_bits]; decide) (by rw [useKey_bits]; decide)
  have := C108_pss_refuted toyDigest16_lawful (by decide) MD5.lawful (by decide) (by decide) wordRng 1 useKey useKey_valid (Or.inl rfl) (by decide +kernel)
    [1#8, 2#8] (fun _ => useOaep) useOaep_hb (by decide) (by rw [useKey_len]; decide) (by rw [useKey_len]; decide) (by rw [useKey_len]; decide +kernel)
    (md5Pss useKey) rfl (md5Pss_good useKey) [0x68#8, 0x69#8] (List.replicate 16 7#8) (by decide) rfl (by rw [useKey_bits]; decide)
    (by rw [useKey_bits]; decide) h8 hsh useZ (by rw [useKey_bits]; exact useZ_eq) 1217 useZi
    (by unfold Nat.ModEq; decide +kernel) 8 (by decide) (by rw [useKey_len]; decide +kernel) _ rfl (root_clash toyDigest16_lawful (by decide) wordRng 1 useKey
      useKey_valid (Or.inl rfl) (by decide +kernel) [1#8, 2#8] (fun _ => useOaep) useOaep_hb (by decide) (by rw [useKey_len]; decide)
      (by rw [useKey_len]; decide) _ _ _ 8 (by rw [useKey_len]; exact use_clash_pss))
  rw [useKey_len] at this
  exact ⟨_, rfl, this⟩

/-- `C108_factors`: 128 of the 512 factors below 512 lead below 128. -/
example : ((List.range 512).filter fun r => decide (r * 37 % 512 < 128)).length = 128 := by
  rw [C108_factors 512 37 (by decide) (fun x => decide (x < 128))]; decide +kernel

/-- The hypotheses of `C108_answers_refuted` are met by that key and that message. -/
example : 11 < useKey.pk.modulusLen ∧ (digestInfo Spec.PKCS1.oidMD5 (Spec.MD5.hash [0x68#8, 0x69#8])).length + 11 ≤ useKey.pk.modulusLen ∧
    Nat.Coprime (beNat (emsa useKey.pk.modulusLen (digestInfo Spec.PKCS1.oidMD5 (Spec.MD5.hash [0x68#8, 0x69#8])))) useKey.pk.n := by
  rw [useKey_len]
  exact ⟨by decide, by decide +kernel, by rw [← useY_eq]; unfold Nat.Coprime; decide +kernel⟩

/-- `C108_sign_partial` for that key: the signature of `hi` opens that one number. -/
example (c : Bytes) (hcl : c.length = useKey.pk.modulusLen) (hc : beNat c < useKey.pk.n) :
    ∃ o' sig, PKCS1.sign wordRng 1 MD5.digest (⟨.pri useKey, (), MD5.new, false, .md5⟩ : PKCS1.Obj Unit (MD.State MD5.Quad)) [0x68#8, 0x69#8] = .ok (o', sig) ∧
      (rsadp useKey.pk.n useKey.d (beNat c) = beNat sig ↔ c = emsa useKey.pk.modulusLen (digestInfo Spec.PKCS1.oidMD5 (Spec.MD5.hash [0x68#8, 0x69#8]))) := by
  have hg : GoodState (MD.Abs MD5.params MD5.init) (MD.Chk MD5.out Spec.MD5.hash) MD5.new := ⟨[], Or.inl (MD.abs_new MD5.params (by decide) MD5.init)⟩
  have hl : (digestInfo Spec.PKCS1.oidMD5 (Spec.MD5.hash [0x68#8, 0x69#8])).length + 11 ≤ useKey.pk.modulusLen := by rw [useKey_len]; decide +kernel
  obtain ⟨o', h, -⟩ := C46_sign MD5.lawful wordRng 1 useKey useKey_valid (Or.inl rfl)
    (⟨.pri useKey, (), MD5.new, false, .md5⟩ : PKCS1.Obj Unit (MD.State MD5.Quad)) rfl hg (fun h => by cases h) _ rfl [0x68#8, 0x69#8] (by decide) hl
  exact ⟨o', _, h, C108_sign_partial MD5.lawful wordRng 1 useKey useKey_valid (Or.inl rfl) _ o' rfl hg (fun h => by cases h) _ rfl _ _ (by decide) hl h c hcl hc⟩

end Verif.Props
