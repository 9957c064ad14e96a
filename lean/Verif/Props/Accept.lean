import Verif.Proof.Accept
import Verif.Props.PKCS1
import Verif.Proof.Bleichenbacher
import Mathlib.Data.Nat.ModEq

/-! Property C102 (what the acceptance of an RSAES-PKCS1-v1_5 ciphertext tells) -/

namespace Verif.Props
open Verif.Model Verif.Model.RSA Verif.Spec.RSA
open Verif.Spec (toBE Manger.question)
open Verif.Spec.PKCS1 (eme IsPS Wf)

/-- The one bit the attack looks at: whether the receiver takes the ciphertext. `b q` is the receiver's object in whatever state it is when the ciphertext
`q` comes. -/
def accepts {σ S : Type} (g : Rng σ) (fuel : Nat) (b : Bytes → PKCS1.Obj σ S) (q : Bytes) : Bool := (PKCS1.decrypt g fuel (b q) q).isOk

section
variable {σ S : Type}

/-- C102: a refusal says nothing but that it is one: every ciphertext in the range that is refused is refused with the same kind of error. -/
theorem C102_kind_partial (g : Rng σ) (fuel : Nat) (sk : RSA.PrivateKey) (hv : ValidKey sk.pk.n sk.pk.e sk.d sk.primes) (hk : Computed sk)
    (he : sk.pk.isValid = .ok ()) (b : PKCS1.Obj σ S) (hb : b.kp = .pri sk) (hu : b.blinding = true → Usable g sk.pk.n fuel b.rd)
    (h11 : 11 < sk.pk.modulusLen) (c : Bytes) (hl : c.length = sk.pk.modulusLen) (hc : beNat c ≤ sk.pk.n) :
    (∃ x, PKCS1.decrypt g fuel b c = .ok x) ∨ PKCS1.decrypt g fuel b c = .error (.err .verificationFailed) := by
  obtain ⟨rd2, e⟩ := PKCS1.decrypt_eq g fuel hv hk he b hb hu h11 c hl hc
  have hlen : (toBE sk.pk.modulusLen (beNat c ^ sk.d % sk.pk.n)).length = sk.pk.modulusLen := Spec.length_toBE _ _
  rw [e]
  cases h1 : PKCS1.unpad (toBE sk.pk.modulusLen (beNat c ^ sk.d % sk.pk.n)) with
  | ok m => exact Or.inl ⟨_, rfl⟩
  | error x => rw [PKCS1.unpad_error (by omega) h1]; exact Or.inr rfl

/-- The ciphertext of `f` times an unknown number `m` is accepted exactly when `f * m` modulo `n` is the number of a well-formed encoding. -/
theorem accepts_question (g : Rng σ) (fuel : Nat) (sk : RSA.PrivateKey) (hv : ValidKey sk.pk.n sk.pk.e sk.d sk.primes) (hk : Computed sk)
    (he : sk.pk.isValid = .ok ()) (b : Bytes → PKCS1.Obj σ S)
    (hb : ∀ q, (b q).kp = .pri sk ∧ ((b q).blinding = true → Usable g sk.pk.n fuel (b q).rd)) (h11 : 11 < sk.pk.modulusLen) (m f : Nat) :
    accepts g fuel b (Manger.question sk.pk.modulusLen sk.pk.n sk.pk.e (rsaep sk.pk.n sk.pk.e m) f) = true ↔
      Wf sk.pk.modulusLen (f * m % sk.pk.n) := by
  have hn := validKey_pos hv
  obtain ⟨k0, k1, -⟩ := modulusLen_spec sk.pk hn
  have hq : beNat (Manger.question sk.pk.modulusLen sk.pk.n sk.pk.e (rsaep sk.pk.n sk.pk.e m) f) = (f * m) ^ sk.pk.e % sk.pk.n := by
    rw [Spec.Manger.question, Spec.beNat_toBE, Nat.mod_eq_of_lt (Nat.lt_trans (Nat.mod_lt _ hn) k1), rsaep, Nat.mul_mod, Nat.mod_mod, ← Nat.mul_mod, mul_pow]
  have hdec : rsadp sk.pk.n sk.d (beNat (Manger.question sk.pk.modulusLen sk.pk.n sk.pk.e (rsaep sk.pk.n sk.pk.e m) f)) = f * m % sk.pk.n := by
    rw [hq, rsadp, ← Nat.pow_mod, ← pow_mul]
    exact validKey_pow hv (f * m)
  have hql : (Manger.question sk.pk.modulusLen sk.pk.n sk.pk.e (rsaep sk.pk.n sk.pk.e m) f).length = sk.pk.modulusLen := Spec.length_toBE _ _
  have hqn : beNat (Manger.question sk.pk.modulusLen sk.pk.n sk.pk.e (rsaep sk.pk.n sk.pk.e m) f) ≤ sk.pk.n := by
    rw [hq]; exact Nat.le_of_lt (Nat.mod_lt _ hn)
  generalize Manger.question sk.pk.modulusLen sk.pk.n sk.pk.e (rsaep sk.pk.n sk.pk.e m) f = q at *
  obtain ⟨b1, b2⟩ := hb q
  have key := fun msg => C43_decrypt_exact g fuel sk hv hk he (b q) b1 b2 h11 q msg hql hqn
  rw [hdec] at key
  have hlt : f * m % sk.pk.n < 256 ^ sk.pk.modulusLen := Nat.lt_trans (Nat.mod_lt _ hn) k1
  unfold accepts
  constructor
  · intro h
    cases hd : PKCS1.decrypt g fuel (b q) q with
    | error x => rw [hd] at h; cases h
    | ok x =>
      obtain ⟨ps, hp, e⟩ := (key x.2).1 ⟨x.1, hd⟩
      refine ⟨ps, x.2, hp, by rw [← e]; exact Spec.length_toBE _ _, ?_⟩
      rw [← e, Spec.beNat_toBE, Nat.mod_eq_of_lt hlt]
  · rintro ⟨ps, msg, hp, hl, e⟩
    obtain ⟨b', h⟩ := (key msg).2 ⟨ps, hp, by rw [e, toBE_em hl]⟩
    rw [h]; rfl

/-- C102: acceptance tells any two encoded messages apart. For every valid key of at least twelve bytes, every two different numbers below the modulus, one
of them prime to it (all others give the factors of the modulus away at once), in every state of the receiver, with and without blinding: there is a
factor for which the ciphertext of the first, changed by that factor with the public key alone, is accepted and the same change of the ciphertext of the second
is refused. -/
theorem C102_refuted (g : Rng σ) (fuel : Nat) (sk : RSA.PrivateKey) (hv : ValidKey sk.pk.n sk.pk.e sk.d sk.primes) (hk : Computed sk)
    (he : sk.pk.isValid = .ok ()) (b : Bytes → PKCS1.Obj σ S)
    (hb : ∀ q, (b q).kp = .pri sk ∧ ((b q).blinding = true → Usable g sk.pk.n fuel (b q).rd)) (h11 : 11 < sk.pk.modulusLen)
    (m m' : Nat) (hm : m < sk.pk.n) (hm' : m' < sk.pk.n) (hne : m ≠ m') (hcop : Nat.Coprime m sk.pk.n) :
    ∃ f < sk.pk.n, accepts g fuel b (Manger.question sk.pk.modulusLen sk.pk.n sk.pk.e (rsaep sk.pk.n sk.pk.e m) f) = true ∧
      accepts g fuel b (Manger.question sk.pk.modulusLen sk.pk.n sk.pk.e (rsaep sk.pk.n sk.pk.e m') f) = false := by
  have hn := validKey_pos hv
  obtain ⟨k0, k1, k2⟩ := modulusLen_spec sk.pk hn
  have hA := accepts_question g fuel sk hv hk he b hb h11
  by_contra hno
  have hall : ∀ f < sk.pk.n, Wf sk.pk.modulusLen (f * m % sk.pk.n) → Wf sk.pk.modulusLen (f * m' % sk.pk.n) := by
    intro f hf hw
    by_contra hc
    refine hno ⟨f, hf, (hA m f).2 hw, ?_⟩
    cases h : accepts g fuel b (Manger.question sk.pk.modulusLen sk.pk.n sk.pk.e (rsaep sk.pk.n sk.pk.e m') f) with
    | false => rfl
    | true => exact absurd ((hA m' f).1 h) hc
  have hn1 : 1 < sk.pk.n := by
    have : 256 ^ (sk.pk.modulusLen - 1) ≤ sk.pk.n := by omega
    have : 256 ^ 1 ≤ 256 ^ (sk.pk.modulusLen - 1) := Nat.pow_le_pow_right (by omega) (by omega)
    omega
  obtain ⟨mi, -, hmi⟩ := Nat.exists_mul_mod_eq_one_of_coprime hcop hn1
  have hone := Spec.PKCS1.factor_one (n := sk.pk.n) (k := sk.pk.modulusLen) (t := m' * mi) (by omega) (by omega) ?_
  · have e1 : m' * mi ≡ 1 [MOD sk.pk.n] := hone
    have e2 : m' * (m * mi) ≡ m' [MOD sk.pk.n] := by
      have : m * mi ≡ 1 [MOD sk.pk.n] := by rw [Nat.ModEq, hmi, Nat.mod_eq_of_lt hn1]
      simpa using this.mul_left m'
    have e3 : m' * mi * m ≡ m [MOD sk.pk.n] := by simpa using e1.mul_right m
    have e4 : m ≡ m' [MOD sk.pk.n] := e3.symm.trans (by rw [show m' * mi * m = m' * (m * mi) by ring]; exact e2)
    exact hne (by rw [Nat.ModEq, Nat.mod_eq_of_lt hm, Nat.mod_eq_of_lt hm'] at e4; exact e4)
  · intro x hx
    have hxn : x < sk.pk.n := by
      obtain ⟨ps, msg, -, hl, rfl⟩ := hx
      exact PKCS1.eme_lt hn hl
    have := hall (x * mi % sk.pk.n) (Nat.mod_lt _ hn) (by
      have e : x * mi % sk.pk.n * m ≡ x [MOD sk.pk.n] := by
        have a : x * mi % sk.pk.n * m ≡ x * mi * m [MOD sk.pk.n] := (Nat.mod_modEq _ _).mul_right _
        have c : m * mi ≡ 1 [MOD sk.pk.n] := by rw [Nat.ModEq, hmi, Nat.mod_eq_of_lt hn1]
        have d : x * (m * mi) ≡ x [MOD sk.pk.n] := by simpa using c.mul_left x
        exact a.trans (by rw [show x * mi * m = x * (m * mi) by ring]; exact d)
      rw [Nat.ModEq, Nat.mod_eq_of_lt hxn] at e
      rw [e]; exact hx)
    have e : x * mi % sk.pk.n * m' ≡ m' * mi * x [MOD sk.pk.n] := by
      have a : x * mi % sk.pk.n * m' ≡ x * mi * m' [MOD sk.pk.n] := (Nat.mod_modEq _ _).mul_right _
      rwa [show x * mi * m' = m' * mi * x by ring] at a
    rw [Nat.ModEq] at e
    rwa [← e]

/-- C102: so the answers alone, without the ciphertext, determine the message: for a given public key there is one function that takes the answers to the
encoded message, whatever the private key's form, the receiver's states and the source of randomness are. -/
theorem C102_determined_refuted (pk : RSA.PublicKey) (h11 : 11 < pk.modulusLen) :
    ∃ F : (Nat → Bool) → Nat, ∀ (g : Rng σ) (fuel : Nat) (sk : RSA.PrivateKey), sk.pk = pk → ValidKey sk.pk.n sk.pk.e sk.d sk.primes → Computed sk →
      sk.pk.isValid = .ok () → ∀ b : Bytes → PKCS1.Obj σ S,
      (∀ q, (b q).kp = .pri sk ∧ ((b q).blinding = true → Usable g sk.pk.n fuel (b q).rd)) → ∀ m < pk.n, Nat.Coprime m pk.n →
      F (fun f => accepts g fuel b (Manger.question pk.modulusLen pk.n pk.e (rsaep pk.n pk.e m) f)) = m := by
  classical
  refine ⟨fun ans => if h : ∃ m < pk.n, Nat.Coprime m pk.n ∧ ∀ f, ans f = decide (Wf pk.modulusLen (f * m % pk.n)) then h.choose else 0, ?_⟩
  rintro g fuel sk rfl hv hk he b hb m hm hcop
  have hA := accepts_question g fuel sk hv hk he b hb h11
  have hans : ∀ m f, accepts g fuel b (Manger.question sk.pk.modulusLen sk.pk.n sk.pk.e (rsaep sk.pk.n sk.pk.e m) f) =
      decide (Wf sk.pk.modulusLen (f * m % sk.pk.n)) := fun m f => by rw [Bool.eq_iff_iff, hA, decide_eq_true_iff]
  have hex : ∃ m' < sk.pk.n, Nat.Coprime m' sk.pk.n ∧ ∀ f,
      (fun f => accepts g fuel b (Manger.question sk.pk.modulusLen sk.pk.n sk.pk.e (rsaep sk.pk.n sk.pk.e m) f)) f =
        decide (Wf sk.pk.modulusLen (f * m' % sk.pk.n)) := ⟨m, hm, hcop, hans m⟩
  beta_reduce
  rw [dif_pos hex]
  obtain ⟨c1, c2, c3⟩ := hex.choose_spec
  by_contra hne
  obtain ⟨f, -, y, z⟩ := C102_refuted g fuel sk hv hk he b hb h11 m _ hm c1 (Ne.symm hne) hcop
  rw [hans, ← c3 f] at z
  exact Bool.noConfusion (y.symm.trans z)

/-- C102: Bleichenbacher's attack is sound against this receiver, for every valid key of at least twelve bytes, every padding and message, in every state of
the receiver, with and without blinding, and however many questions it may ask: the intervals it is left with contain the encoded message, and when they
are a single number that is the encoded message, from which the message can be read. -/
theorem C102_attack_refuted (g : Rng σ) (fuel : Nat) (sk : RSA.PrivateKey) (hv : ValidKey sk.pk.n sk.pk.e sk.d sk.primes) (hk : Computed sk)
    (he : sk.pk.isValid = .ok ()) (b : Bytes → PKCS1.Obj σ S)
    (hb : ∀ q, (b q).kp = .pri sk ∧ ((b q).blinding = true → Usable g sk.pk.n fuel (b q).rd)) (h11 : 11 < sk.pk.modulusLen)
    (ps msg : Bytes) (hp : IsPS ps) (hl : (eme ps msg).length = sk.pk.modulusLen) (t : Nat) (A : Spec.Ask (List (Nat × Nat)))
    (hA : A = Spec.Bleichenbacher.attack sk.pk.modulusLen sk.pk.n sk.pk.e (rsaep sk.pk.n sk.pk.e (beNat (eme ps msg))) t) :
    (∃ ab ∈ A.run (accepts g fuel b), ab.1 ≤ beNat (eme ps msg) ∧ beNat (eme ps msg) ≤ ab.2) ∧
    (∀ x, A.run (accepts g fuel b) = [(x, x)] → toBE sk.pk.modulusLen x = eme ps msg) ∧
    (A.asked (accepts g fuel b)).length ≤ t := by
  subst hA
  have hn := validKey_pos hv
  have hr := Spec.PKCS1.Wf.range (k := sk.pk.modulusLen) (x := beNat (eme ps msg)) (by omega) ⟨ps, msg, hp, hl, rfl⟩
  have hold : Spec.Bleichenbacher.Holds ((Spec.Bleichenbacher.attack sk.pk.modulusLen sk.pk.n sk.pk.e
      (rsaep sk.pk.n sk.pk.e (beNat (eme ps msg))) t).run (accepts g fuel b)) (beNat (eme ps msg)) := by
    refine Spec.Bleichenbacher.loop_holds hn (fun s hs => ?_) t _ _ ⟨_, List.mem_singleton.2 rfl, hr.1, by omega⟩
    exact ((accepts_question g fuel sk hv hk he b hb h11 _ s).1 hs).range (by omega)
  refine ⟨hold, fun x hx => ?_, Spec.Bleichenbacher.loop_asked t _ _⟩
  rw [hx] at hold
  obtain ⟨ab, hab, h1, h2⟩ := hold
  rw [List.mem_singleton] at hab
  subst hab
  rw [show x = beNat (eme ps msg) from Nat.le_antisymm h1 h2, toBE_em hl]

end

/-! ## Examples -/

/-- The hypotheses of the first three theorems are met. -/
example : ∃ f < demoKey45.pk.n,
    accepts wordRng 1 (fun _ => (⟨.pri demoKey45, (), (), false, .md5⟩ : PKCS1.Obj Unit Unit))
      (Manger.question demoKey45.pk.modulusLen demoKey45.pk.n demoKey45.pk.e (rsaep demoKey45.pk.n demoKey45.pk.e 2) f) = true ∧
    accepts wordRng 1 (fun _ => (⟨.pri demoKey45, (), (), false, .md5⟩ : PKCS1.Obj Unit Unit))
      (Manger.question demoKey45.pk.modulusLen demoKey45.pk.n demoKey45.pk.e (rsaep demoKey45.pk.n demoKey45.pk.e 4) f) = false :=
  C102_refuted wordRng 1 demoKey45 demoKey45_valid demoKey45_computed demoKey45_pk _ (fun _ => ⟨rfl, fun h => by cases h⟩)
    (by rw [demoKey45_len]; decide) 2 4 (by decide) (by decide) (by decide) (by decide +kernel)

/-- A key of 353 bits (45 bytes) made of 45 small primes; its modulus is small for its number of bytes, so that few questions are enough. -/
def demoKey353 : RSA.PrivateKey :=
  ⟨⟨9775832464123202449697094096619456117502215340948547224617308547008776773600585519854435592437269322205949, 3⟩,
    17454216963249667965088662596798586693338365486569089067,
    [11, 17, 23, 29, 47, 59, 71, 83, 89, 101, 107, 131, 137, 149, 173, 179, 191, 227, 239, 263, 311, 317, 347, 353, 359, 383, 389, 431, 443, 461, 467, 479,
      491, 503, 509, 521, 587, 599, 617, 641, 659, 701, 719, 743, 773], Precomputed.nan⟩

theorem demoKey353_valid : ValidKey demoKey353.pk.n demoKey353.pk.e demoKey353.d demoKey353.primes where
  two := by decide
  prime := by simp only [demoKey353, List.forall_mem_cons, List.not_mem_nil, false_implies, implies_true, and_true]; norm_num
  odd := by simp only [demoKey353, List.forall_mem_cons, List.not_mem_nil, false_implies, implies_true, and_true]; norm_num
  distinct := by decide
  prod := by decide +kernel
  inv := by simp only [demoKey353, List.forall_mem_cons, List.not_mem_nil, false_implies, implies_true, and_true]; decide +kernel

theorem demoKey353_len : demoKey353.pk.modulusLen = 45 := by
  have h : Nat.size demoKey353.pk.n = 353 := by
    refine Nat.le_antisymm (Nat.size_le.2 (by decide +kernel)) ?_
    exact Nat.lt_size.2 (by decide +kernel)
  rw [PublicKey.modulusLen, bitsLen, h]
  rfl

/-- An encoding of the message `hi`. -/
def demoPS353 : Bytes := [0x70#8, 0x2a#8, 0x2d#8, 0xe4#8, 0xf9#8, 0x40#8, 0xbb#8, 0x06#8, 0xa5#8, 0x8e#8, 0x63#8, 0x13#8, 0xcd#8, 0xef#8, 0x5b#8, 0x4e#8, 0x17#8, 0xf5#8, 0xe1#8, 0x12#8,
  0x20#8, 0x02#8, 0x72#8, 0x1b#8, 0xf0#8, 0xc1#8, 0x3b#8, 0xb7#8, 0x82#8, 0x11#8, 0xe5#8, 0x3e#8, 0x27#8, 0xa4#8, 0xde#8, 0xc8#8, 0x19#8, 0x21#8, 0x50#8, 0x2d#8]

/-- The attack from beginning to end against the receiver of the model: it knows the public key and the ciphertext, asks less than 8192 times and is left with
the encoded message alone. -/
theorem C102_attack_demo :
    (Spec.Bleichenbacher.attack 45 demoKey353.pk.n demoKey353.pk.e (rsaep demoKey353.pk.n demoKey353.pk.e (beNat (eme demoPS353 [0x68#8, 0x69#8]))) 8192).run
      (accepts wordRng 1 fun _ => (⟨.pri demoKey353, (), (), false, .md5⟩ : PKCS1.Obj Unit Unit)) =
    [(beNat (eme demoPS353 [0x68#8, 0x69#8]), beNat (eme demoPS353 [0x68#8, 0x69#8]))] := by
  have hq := accepts_question wordRng 1 demoKey353 demoKey353_valid (Or.inl rfl) (by decide +kernel)
    (fun _ => (⟨.pri demoKey353, (), (), false, .md5⟩ : PKCS1.Obj Unit Unit)) (fun _ => ⟨rfl, fun h => by cases h⟩)
    (by rw [demoKey353_len]; decide) (beNat (eme demoPS353 [0x68#8, 0x69#8]))
  rw [demoKey353_len] at hq
  have e : beNat (eme demoPS353 [0x68#8, 0x69#8]) =
      87373109107448448630939894175937019048754986217807667183597616074189361915438695866063356529002382649449 := by decide +kernel
  rw [e] at hq ⊢
  unfold Spec.Bleichenbacher.attack
  rw [Spec.Bleichenbacher.run_loop (P := fun s => Spec.Bleichenbacher.wfTest 45
    (s * 87373109107448448630939894175937019048754986217807667183597616074189361915438695866063356529002382649449 % demoKey353.pk.n)) ?_]
  · rw [Spec.Bleichenbacher.sim_step (P' := fun s => Spec.Bleichenbacher.wfTest 45
      (s * 87373109107448448630939894175937019048754986217807667183597616074189361915438695866063356529002382649449 % demoKey353.pk.n)) (fun _ => rfl) 8192
      ([(2 * 256 ^ (45 - 2), 3 * 256 ^ (45 - 2) - 1)], Spec.Manger.ceil demoKey353.pk.n (3 * 256 ^ (45 - 2)), 0),
      show 8192 = 2 ^ 13 from rfl, ← Spec.Bleichenbacher.fast_eq]
    decide +kernel
  · intro s
    rw [Bool.eq_iff_iff, hq s, Spec.Bleichenbacher.wfTest_iff (by decide)]

example : IsPS demoPS353 ∧ (eme demoPS353 [0x68#8, 0x69#8]).length = demoKey353.pk.modulusLen := ⟨⟨by decide, by decide⟩, by rw [demoKey353_len]; rfl⟩

end Verif.Props
