import Verif.Proof.RSAObj

/-! Helper lemmas: what the methods of the RSA objects do does not depend on what the hash object was used for before -/

namespace Verif.Model.RSAObj
open Verif.Model.RSA
open Meth

variable {σ S ω α β : Type}

/-- Two results are the same error, or values related by `Q`. -/
def ResRel (Q : α → α → Prop) : Res α → Res α → Prop
  | .ok a, .ok a' => Q a a'
  | .error e, .error e' => e = e'
  | _, _ => False

/-- Run on objects related by `R` and on equal buffers, two methods leave objects related by `R` and equal buffers, and return results related by `Q`. -/
def Same (R : ω → ω → Prop) (Q : α → α → Prop) (m1 m2 : Meth ω α) : Prop :=
  ∀ o1 o2 b, R o1 o2 → R (m1.run o1 b).1 (m2.run o2 b).1 ∧ (m1.run o1 b).2.1 = (m2.run o2 b).2.1 ∧ ResRel Q (m1.run o1 b).2.2 (m2.run o2 b).2.2

variable {R : ω → ω → Prop} {Q : α → α → Prop} {P : β → β → Prop}

theorem Same.bind {m1 m2 : Meth ω α} {f1 f2 : α → Meth ω β} (h : Same R Q m1 m2) (hf : ∀ a1 a2, Q a1 a2 → Same R P (f1 a1) (f2 a2)) :
    Same R P (m1 >>= f1) (m2 >>= f2) := by
  intro o1 o2 b hr
  obtain ⟨h1, h2, h3⟩ := h o1 o2 b hr
  rw [bind_run, bind_run]
  generalize m1.run o1 b = r1 at h1 h2 h3 ⊢
  generalize m2.run o2 b = r2 at h1 h2 h3 ⊢
  rcases r1 with ⟨o1', b1, e1 | a1⟩ <;> rcases r2 with ⟨o2', b2, e2 | a2⟩
  · exact ⟨h1, h2, h3⟩
  · exact h3.elim
  · exact h3.elim
  · dsimp only at h1 h2 h3 ⊢
    subst h2
    exact hf a1 a2 h3 o1' o2' b1 h1

theorem Same.self : Same R R self self := fun _ _ _ h => ⟨h, rfl, h⟩

theorem Same.self_bind {f1 f2 : ω → Meth ω β} (hf : ∀ o1 o2, R o1 o2 → Same R P (f1 o1) (f2 o2)) : Same R P (Meth.self >>= f1) (Meth.self >>= f2) :=
  Same.bind Same.self hf

/-- A step that looks at the buffer only. -/
theorem Same.ofBuffer {m : Meth ω α} {f : Bytes → Bytes} {r : Bytes → Res α} (h : ∀ o b, m.run o b = (o, f b, r b)) (hq : ∀ b a, r b = .ok a → Q a a) :
    Same R Q m m := by
  intro o1 o2 b hr
  rw [h, h]
  refine ⟨hr, rfl, ?_⟩
  dsimp only
  cases hrb : r b with
  | error e => exact rfl
  | ok a => exact hq b a hrb

theorem Same.lift (r : Res α) : Same R (fun a a' => a = a' ∧ r = .ok a) (lift r) (lift r) :=
  Same.ofBuffer (f := id) (r := fun _ => r) (fun _ _ => rfl) fun _ _ h => ⟨rfl, h⟩

theorem Same.fail (e : Fault) : Same R Q (fail e) (fail e) := Same.ofBuffer (f := id) (r := fun _ => .error e) (fun _ _ => rfl) fun _ _ h => by cases h

theorem Same.pure {a1 a2 : α} (h : Q a1 a2) : Same R Q (Pure.pure a1) (Pure.pure a2) := fun _ _ _ hr => ⟨hr, rfl, h⟩

theorem Same.write (c : Bytes → Bytes) : Same R Eq (write c) (write c) :=
  Same.ofBuffer (f := c) (r := fun _ => .ok ()) (fun _ _ => rfl) fun _ _ _ => rfl

theorem Same.clear : Same R Eq clear clear := Same.write _
theorem Same.extend (x : Bytes) : Same R Eq (extend x) (extend x) := Same.write _
theorem Same.resize (n : Nat) : Same R Eq (resize n) (resize n) := Same.write _
theorem Same.buffer : Same R Eq buffer buffer := Same.ofBuffer (f := id) (r := fun b => .ok b) (fun _ _ => rfl) fun _ _ _ => rfl

/-- A step after which nothing is known about the value but that it is the same on both sides. -/
theorem Same.next {m1 m2 : Meth ω α} {f1 f2 : α → Meth ω β} (h : Same R Eq m1 m2) (hf : ∀ a, Same R P (f1 a) (f2 a)) : Same R P (m1 >>= f1) (m2 >>= f2) :=
  Same.bind h fun a1 a2 e => by subst e; exact hf a1

theorem Same.lift_next {r : Res α} {f1 f2 : α → Meth ω β} (hf : ∀ a, r = .ok a → Same R P (f1 a) (f2 a)) : Same R P (Meth.lift r >>= f1) (Meth.lift r >>= f2) :=
  Same.bind (Same.lift r) fun a1 a2 e => by obtain ⟨e1, e2⟩ := e; subst e1; exact hf a1 e2

variable {d : Digest S} {H : Bytes → Bytes} {bs : Option Nat} {size : Nat} {Abs Chk : S → Bytes → Prop}

theorem rawDecrypt_none (g : Rng σ) (fuel : Nat) (sk : RSA.PrivateKey) (c : Nat) : (rawDecrypt g fuel sk c none).1 = none := by
  unfold rawDecrypt
  split
  · rfl
  split <;> rfl

theorem rawCheck_none (g : Rng σ) (fuel : Nat) (sk : RSA.PrivateKey) (c : Nat) : (rawCheck g fuel sk c none).1 = none := by
  have := rawDecrypt_none g fuel sk c
  unfold rawCheck
  generalize rawDecrypt g fuel sk c none = r at this ⊢
  rcases r with ⟨rd, e | m⟩
  · exact this
  · rcases m with _ | m | m <;> exact this

theorem ResRel.refl {r : Res α} (h : ∀ a, Q a a) : ResRel Q r r := by
  cases r with
  | error e => exact rfl
  | ok a => exact h a

theorem hash_same (L : LawfulDigest d H bs size Abs Chk) {hf : S} (hh : ∃ x, Abs hf x ∨ Chk hf x) {parts : List Bytes} (hl : parts.flatten.length < 2 ^ 64) :
    ∃ hf', hashParts d hf parts = .ok (hf', H parts.flatten) ∧ ∃ x, Abs hf' x ∨ Chk hf' x := by
  obtain ⟨x, hx⟩ := hh
  obtain ⟨hf', h1, h2⟩ := hashParts_ok L hx parts hl
  exact ⟨hf', h1, _, Or.inr h2⟩

/-- A valid key and a source with which blinding always succeeds. -/
structure Sound (g : Rng σ) (fuel : Nat) (sk : RSA.PrivateKey) : Prop where
  valid : Spec.RSA.ValidKey sk.pk.n sk.pk.e sk.d sk.primes
  computed : Computed sk
  usable : ∀ s, Usable g sk.pk.n fuel s

theorem decrypt_sound {g : Rng σ} {fuel : Nat} {sk : RSA.PrivateKey} (h : Sound g fuel sk) (c : Nat) (rd : Option σ) :
    (sk.decrypt g fuel c rd).map Prod.fst = if c > sk.pk.n then .error (.err .invalidParameter) else .ok (some ((c ^ sk.d % sk.pk.n : Nat) : Int)) := by
  by_cases hc : c > sk.pk.n
  · unfold PrivateKey.decrypt
    rw [if_pos hc, if_pos hc]
    rfl
  · rw [if_neg hc]
    rcases decrypt_cases g fuel h.valid h.computed (Nat.le_of_not_lt hc) rd with ⟨⟨s, hs, hd⟩, -⟩ | ⟨rd', h'⟩
    · obtain ⟨x, hx⟩ := blindLoop_usable (h.usable s)
      rw [hx] at hd; cases hd
    · rw [h']; rfl

theorem rawDecrypt_sound {g : Rng σ} {fuel : Nat} {sk : RSA.PrivateKey} (h : Sound g fuel sk) (c : Nat) (b1 b2 : Option σ) :
    (rawDecrypt g fuel sk c b1).2 = (rawDecrypt g fuel sk c b2).2 := by
  have e : ∀ rd, (sk.decrypt g fuel c rd).map Prod.fst = (rawDecrypt g fuel sk c rd).2 := by
    intro rd
    rw [rawDecrypt_value]
    cases (rawDecrypt g fuel sk c rd).2 <;> rfl
  rw [← e, ← e, decrypt_sound h, decrypt_sound h]

theorem rawCheck_sound {g : Rng σ} {fuel : Nat} {sk : RSA.PrivateKey} (h : Sound g fuel sk) (c : Nat) (b1 b2 : Option σ) :
    (rawCheck g fuel sk c b1).2 = (rawCheck g fuel sk c b2).2 := by
  have e := rawDecrypt_sound h c b1 b2
  unfold rawCheck
  generalize rawDecrypt g fuel sk c b1 = r1 at e ⊢
  generalize rawDecrypt g fuel sk c b2 = r2 at e ⊢
  obtain ⟨rd1, r⟩ := r1
  obtain ⟨rd2, r'⟩ := r2
  dsimp only at e
  subst e
  rcases r with e | _ | m | m <;> rfl

/-! ## PKCS #1 v1.5 -/

namespace PKCS1

/-- An object with the same fixed parts and a hash object that has only been used through its interface. -/
structure Like (Abs Chk : S → Bytes → Prop) (o₀ o : Model.PKCS1.Obj σ S) : Prop where
  kp : o.kp = o₀.kp
  blinding : o.blinding = o₀.blinding
  ty : o.ty = o₀.ty
  good : ∃ x, Abs o.hf x ∨ Chk o.hf x

/-- Two such objects; if `E`, then also with the same state of the random source. -/
def Twin (E : Prop) (Abs Chk : S → Bytes → Prop) (o₀ o1 o2 : Model.PKCS1.Obj σ S) : Prop :=
  Like Abs Chk o₀ o1 ∧ Like Abs Chk o₀ o2 ∧ (E → o1.rd = o2.rd)

variable {E : Prop} {o₀ : Model.PKCS1.Obj σ S}

theorem decryptStep_same (g : Rng σ) (fuel : Nat) (sk : RSA.PrivateKey) (c : Nat) (hE : E ∨ o₀.blinding = false ∨ Sound g fuel sk) :
    Same (Twin E Abs Chk o₀) Eq (decryptStep g fuel sk c) (decryptStep g fuel sk c) := by
  rintro o1 o2 b ⟨l1, l2, hr⟩
  unfold run decryptStep
  rw [l1.blinding, l2.blinding]
  rcases hE with hE | hE | hE
  · rw [hr hE]
    exact ⟨⟨⟨l1.kp, rfl, l1.ty, l1.good⟩, ⟨l2.kp, rfl, l2.ty, l2.good⟩, fun _ => rfl⟩, rfl, ResRel.refl fun _ => rfl⟩
  · rw [hE]
    simp only [Bool.false_eq_true, if_false, rawDecrypt_none, Option.getD_none]
    exact ⟨⟨⟨l1.kp, hE.symm, l1.ty, l1.good⟩, ⟨l2.kp, hE.symm, l2.ty, l2.good⟩, hr⟩, trivial, ResRel.refl fun _ => rfl⟩
  · have e := rawDecrypt_sound hE c (if o₀.blinding then some o1.rd else none) (if o₀.blinding then some o2.rd else none)
    refine ⟨⟨⟨l1.kp, rfl, l1.ty, l1.good⟩, ⟨l2.kp, rfl, l2.ty, l2.good⟩, fun h => ?_⟩, rfl, ?_⟩
    · rw [hr h]
    · dsimp only
      rw [e]
      exact ResRel.refl fun _ => rfl

theorem checkStep_same (g : Rng σ) (fuel : Nat) (sk : RSA.PrivateKey) (c : Nat) (hE : E ∨ o₀.blinding = false ∨ Sound g fuel sk) :
    Same (Twin E Abs Chk o₀) Eq (checkStep g fuel sk c) (checkStep g fuel sk c) := by
  rintro o1 o2 b ⟨l1, l2, hr⟩
  unfold run checkStep
  rw [l1.blinding, l2.blinding]
  rcases hE with hE | hE | hE
  · rw [hr hE]
    exact ⟨⟨⟨l1.kp, rfl, l1.ty, l1.good⟩, ⟨l2.kp, rfl, l2.ty, l2.good⟩, fun _ => rfl⟩, rfl, ResRel.refl fun _ => rfl⟩
  · rw [hE]
    simp only [Bool.false_eq_true, if_false, rawCheck_none, Option.getD_none]
    exact ⟨⟨⟨l1.kp, hE.symm, l1.ty, l1.good⟩, ⟨l2.kp, hE.symm, l2.ty, l2.good⟩, hr⟩, trivial, ResRel.refl fun _ => rfl⟩
  · have e := rawCheck_sound hE c (if o₀.blinding then some o1.rd else none) (if o₀.blinding then some o2.rd else none)
    refine ⟨⟨⟨l1.kp, rfl, l1.ty, l1.good⟩, ⟨l2.kp, rfl, l2.ty, l2.good⟩, fun h => ?_⟩, rfl, ?_⟩
    · rw [hr h]
    · dsimp only
      rw [e]
      exact ResRel.refl fun _ => rfl

theorem hash_same' (L : LawfulDigest d H bs size Abs Chk) {parts : List Bytes} (hl : parts.flatten.length < 2 ^ 64) :
    Same (Twin E Abs Chk o₀) (fun x y => x = y ∧ x = H parts.flatten) (hash d parts) (hash d parts) := by
  rintro o1 o2 b ⟨l1, l2, hr⟩
  obtain ⟨hf1, e1, g1⟩ := hash_same L l1.good hl
  obtain ⟨hf2, e2, g2⟩ := hash_same L l2.good hl
  unfold run hash
  rw [e1, e2]
  exact ⟨⟨⟨l1.kp, l1.blinding, l1.ty, g1⟩, ⟨l2.kp, l2.blinding, l2.ty, g2⟩, hr⟩, rfl, rfl, rfl⟩

theorem padLoop_same (g : Rng σ) (bound fuel : Nat) (hE : E) : Same (Twin E Abs Chk o₀) Eq (padLoop g bound fuel) (padLoop g bound fuel) := by
  induction fuel with
  | zero => exact Same.fail _
  | succ fuel ih =>
    unfold padLoop
    refine Same.self_bind fun o1 o2 h => ?_
    have hc : Same (Twin E Abs Chk o₀) Eq (change fun o => { o with rd := (g.word o.rd).2 }) (change fun o => { o with rd := (g.word o.rd).2 }) := by
      rintro p1 p2 b ⟨l1, l2, hr⟩
      refine ⟨⟨⟨l1.kp, l1.blinding, l1.ty, l1.good⟩, ⟨l2.kp, l2.blinding, l2.ty, l2.good⟩, fun _ => ?_⟩, rfl, rfl⟩
      simp only [change_run, hr hE]
    refine Same.next hc fun _ => ?_
    rw [h.2.2 hE]
    refine Same.next (Same.extend _) fun _ => Same.next Same.buffer fun em => ?_
    split
    · exact Same.pure rfl
    · exact ih

theorem encrypt_same (g : Rng σ) (fuel : Nat) (msg : Bytes) (hE : E) : Same (Twin E Abs Chk o₀) Eq (encrypt g fuel msg) (encrypt g fuel msg) := by
  unfold encrypt
  refine Same.next Same.clear fun _ => ?_
  split
  · exact Same.pure rfl
  refine Same.self_bind fun o1 o2 ⟨l1, l2, _⟩ => ?_
  rw [l1.kp, l2.kp]
  refine Same.lift_next fun _ _ => ?_
  dsimp only
  split
  · exact Same.fail _
  refine Same.next (Same.extend _) fun _ => Same.next (Same.extend _) fun _ => Same.next (padLoop_same g _ fuel hE) fun _ =>
    Same.next (Same.write _) fun _ => Same.next (Same.extend _) fun _ => Same.next (Same.extend _) fun _ => Same.next Same.buffer fun em =>
    Same.next Same.clear fun _ => Same.next (Same.resize _) fun _ => Same.extend _

theorem decrypt_same (g : Rng σ) (fuel : Nat) (c : Bytes) (hE : E ∨ o₀.blinding = false ∨ ∀ sk, o₀.kp.privateKey = some sk → Sound g fuel sk) :
    Same (Twin E Abs Chk o₀) Eq (decrypt g fuel c) (decrypt g fuel c) := by
  unfold decrypt
  refine Same.self_bind fun o1 o2 ⟨l1, l2, _⟩ => ?_
  rw [l1.kp, l2.kp]
  dsimp only
  split
  · exact Same.fail _
  split
  · exact Same.fail _
  cases hp : o₀.kp.privateKey with
  | none => exact Same.fail _
  | some sk =>
    exact Same.lift_next fun _ _ => Same.next (decryptStep_same g fuel sk _ (hE.imp_right fun h => h.imp_right fun h => h sk hp)) fun m => Same.lift_next fun em _ => Same.lift_next fun msg _ =>
      Same.next Same.clear fun _ => Same.extend _

theorem sign_same (L : LawfulDigest d H bs size Abs Chk) (g : Rng σ) (fuel : Nat) (msg : Bytes) (hm : msg.length < 2 ^ 64) (hE : E ∨ o₀.blinding = false ∨ ∀ sk, o₀.kp.privateKey = some sk → Sound g fuel sk) :
    Same (Twin E Abs Chk o₀) Eq (sign g fuel d msg) (sign g fuel d msg) := by
  unfold sign
  refine Same.self_bind fun o1 o2 ⟨l1, l2, _⟩ => ?_
  obtain ⟨x1, g1⟩ := l1.good
  obtain ⟨x2, g2⟩ := l2.good
  rw [l1.kp, l2.kp, l1.ty, l2.ty, hLen_eq L g1, hLen_eq L g2]
  dsimp only
  refine Same.lift_next fun pre _ => ?_
  cases hp : o₀.kp.privateKey with
  | none => exact Same.fail _
  | some sk =>
    dsimp only
    split
    · exact Same.fail _
    refine Same.next Same.clear fun _ => Same.next (Same.extend _) fun _ => Same.next (Same.extend _) fun _ => Same.next (Same.extend _) fun _ =>
      Same.next (Same.extend _) fun _ => Same.next (Same.extend _) fun _ => Same.bind (hash_same' L (by simpa using hm)) fun a1 a2 h => ?_
    rw [← h.1]
    exact Same.next (Same.extend _) fun _ => Same.next Same.buffer fun em => Same.next (checkStep_same g fuel sk _ (hE.imp_right fun h => h.imp_right fun h => h sk hp)) fun c =>
      Same.next Same.clear fun _ => Same.next (Same.resize _) fun _ => Same.extend _

theorem verify_same (L : LawfulDigest d H bs size Abs Chk) (sig msg : Bytes) (hm : msg.length < 2 ^ 64) :
    Same (Twin E Abs Chk o₀) Eq (verify d sig msg) (verify d sig msg) := by
  unfold verify
  refine Same.self_bind fun o1 o2 ⟨l1, l2, _⟩ => ?_
  obtain ⟨x1, g1⟩ := l1.good
  obtain ⟨x2, g2⟩ := l2.good
  rw [l1.kp, l2.kp, l1.ty, l2.ty, hLen_eq L g1, hLen_eq L g2]
  dsimp only
  refine Same.lift_next fun pre _ => ?_
  split
  · exact Same.fail _
  refine Same.lift_next fun e0 _ => Same.lift_next fun e1 _ => Same.lift_next fun p _ => Same.lift_next fun sep _ => ?_
  split
  · exact Same.fail _
  refine Same.bind (hash_same' L (by simpa using hm)) fun a1 a2 h => ?_
  rw [← h.1]
  refine Same.lift_next fun t _ => ?_
  split
  · exact Same.fail _
  split
  · exact Same.fail _
  · exact Same.pure rfl

end PKCS1

/-! ## OAEP -/

theorem slice_le {b x : Bytes} {i j : Nat} (h : slice b i j = .ok x) : x.length ≤ b.length ∧ x.length ≤ j - i := by
  unfold slice at h
  split at h
  · simp only [Except.ok.injEq] at h
    rw [← h]
    simp only [List.length_drop, List.length_take]
    omega
  · cases h

namespace OAEP

/-- An object with the same fixed parts and a hash object that has only been used through its interface. -/
structure Like (Abs Chk : S → Bytes → Prop) (o₀ o : Model.OAEP.Obj σ S) : Prop where
  kp : o.kp = o₀.kp
  blinding : o.blinding = o₀.blinding
  label : o.label = o₀.label
  good : ∃ x, Abs o.hf x ∨ Chk o.hf x

/-- Two such objects; if `E`, then also with the same state of the random source. -/
def Twin (E : Prop) (Abs Chk : S → Bytes → Prop) (o₀ o1 o2 : Model.OAEP.Obj σ S) : Prop :=
  Like Abs Chk o₀ o1 ∧ Like Abs Chk o₀ o2 ∧ (E → o1.rd = o2.rd)

variable {E : Prop} {o₀ : Model.OAEP.Obj σ S}

theorem decryptStep_same (g : Rng σ) (fuel : Nat) (sk : RSA.PrivateKey) (c : Nat) (hE : E ∨ o₀.blinding = false ∨ Sound g fuel sk) :
    Same (Twin E Abs Chk o₀) Eq (decryptStep g fuel sk c) (decryptStep g fuel sk c) := by
  rintro o1 o2 b ⟨l1, l2, hr⟩
  unfold run decryptStep
  rw [l1.blinding, l2.blinding]
  rcases hE with hE | hE | hE
  · rw [hr hE]
    exact ⟨⟨⟨l1.kp, rfl, l1.label, l1.good⟩, ⟨l2.kp, rfl, l2.label, l2.good⟩, fun _ => rfl⟩, rfl, ResRel.refl fun _ => rfl⟩
  · rw [hE]
    simp only [Bool.false_eq_true, if_false, rawDecrypt_none, Option.getD_none]
    exact ⟨⟨⟨l1.kp, hE.symm, l1.label, l1.good⟩, ⟨l2.kp, hE.symm, l2.label, l2.good⟩, hr⟩, trivial, ResRel.refl fun _ => rfl⟩
  · have e := rawDecrypt_sound hE c (if o₀.blinding then some o1.rd else none) (if o₀.blinding then some o2.rd else none)
    refine ⟨⟨⟨l1.kp, rfl, l1.label, l1.good⟩, ⟨l2.kp, rfl, l2.label, l2.good⟩, fun h => ?_⟩, rfl, ?_⟩
    · rw [hr h]
    · dsimp only
      rw [e]
      exact ResRel.refl fun _ => rfl

theorem hash_same' (L : LawfulDigest d H bs size Abs Chk) {parts : List Bytes} (hl : parts.flatten.length < 2 ^ 64) :
    Same (Twin E Abs Chk o₀) (fun x y => x = y ∧ x = H parts.flatten) (hash d parts) (hash d parts) := by
  rintro o1 o2 b ⟨l1, l2, hr⟩
  obtain ⟨hf1, e1, g1⟩ := hash_same L l1.good hl
  obtain ⟨hf2, e2, g2⟩ := hash_same L l2.good hl
  unfold run hash
  rw [e1, e2]
  exact ⟨⟨⟨l1.kp, l1.blinding, l1.label, g1⟩, ⟨l2.kp, l2.blinding, l2.label, g2⟩, hr⟩, rfl, rfl, rfl⟩

theorem mask_same (L : LawfulDigest d H bs size Abs Chk) (hs : 0 < size) (out seed : Bytes) (hl : seed.length + 4 < 2 ^ 64) :
    Same (Twin E Abs Chk o₀) (fun x y => x = y ∧ x.length ≤ out.length) (mask d out seed) (mask d out seed) := by
  rintro o1 o2 b ⟨l1, l2, hr⟩
  obtain ⟨hf1, e1, g1⟩ := mgf1Xor_eq L hs l1.good out seed hl
  obtain ⟨hf2, e2, g2⟩ := mgf1Xor_eq L hs l2.good out seed hl
  unfold run mask
  rw [e1, e2]
  exact ⟨⟨⟨l1.kp, l1.blinding, l1.label, g1⟩, ⟨l2.kp, l2.blinding, l2.label, g2⟩, hr⟩, rfl, rfl, by rw [length_xorBytes]; exact Nat.min_le_left _ _⟩

theorem draw_same (g : Rng σ) (n : Nat) (hE : E) : Same (Twin E Abs Chk o₀) Eq (draw g n) (draw g n) := by
  rintro o1 o2 b ⟨l1, l2, hr⟩
  rw [draw_run, draw_run, hr hE]
  exact ⟨⟨⟨l1.kp, l1.blinding, l1.label, l1.good⟩, ⟨l2.kp, l2.blinding, l2.label, l2.good⟩, fun _ => rfl⟩, rfl, rfl⟩

theorem encrypt_same (L : LawfulDigest d H bs size Abs Chk) (hs : 0 < size) (g : Rng σ) (msg : Bytes) (hlab : o₀.label.length < 2 ^ 64)
    (hk : o₀.kp.publicKey.modulusLen + 4 < 2 ^ 64) (hE : E) : Same (Twin E Abs Chk o₀) Eq (encrypt g d msg) (encrypt g d msg) := by
  unfold encrypt
  refine Same.self_bind fun o1 o2 ⟨l1, l2, _⟩ => ?_
  obtain ⟨x1, g1⟩ := l1.good
  obtain ⟨x2, g2⟩ := l2.good
  rw [l1.kp, l2.kp, l1.label, l2.label, hLen_eq L g1, hLen_eq L g2]
  refine Same.lift_next fun _ _ => ?_
  dsimp only
  split
  · exact Same.fail _
  split
  · exact Same.fail _
  refine Same.bind (hash_same' L (by simpa using hlab)) fun a1 a2 h => ?_
  rw [← h.1]
  refine Same.next (draw_same g _ hE) fun words => ?_
  split
  · exact Same.fail _
  next hem =>
  rw [Decidable.not_not] at hem
  refine Same.lift_next fun seed hseed => Same.lift_next fun db hdb => ?_
  have s1 := (slice_le hseed).1
  have s2 := (slice_le hdb).1
  rw [hem] at s1 s2
  refine Same.bind (mask_same L hs db seed (by omega)) fun db2 db2' h2 => ?_
  rw [← h2.1]
  have s3 := h2.2
  refine Same.bind (mask_same L hs seed db2 (by omega)) fun seed2 seed2' h3 => ?_
  rw [← h3.1]
  refine Same.next Same.clear fun _ => ?_
  split
  · exact Same.next (Same.resize _) fun _ => Same.extend _
  · exact Same.extend _

theorem decrypt_same (L : LawfulDigest d H bs size Abs Chk) (hs : 0 < size) (g : Rng σ) (fuel : Nat) (c : Bytes) (hlab : o₀.label.length < 2 ^ 64)
    (hk : o₀.kp.publicKey.modulusLen + 4 < 2 ^ 64) (hE : E ∨ o₀.blinding = false ∨ ∀ sk, o₀.kp.privateKey = some sk → Sound g fuel sk) :
    Same (Twin E Abs Chk o₀) Eq (decrypt g fuel d c) (decrypt g fuel d c) := by
  unfold decrypt
  split
  · exact Same.fail _
  refine Same.self_bind fun o1 o2 ⟨l1, l2, _⟩ => ?_
  obtain ⟨x1, g1⟩ := l1.good
  obtain ⟨x2, g2⟩ := l2.good
  rw [l1.kp, l2.kp, l1.label, l2.label, hLen_eq L g1, hLen_eq L g2]
  cases hp : o₀.kp.privateKey with
  | none => exact Same.fail _
  | some sk =>
    have hpk : o₀.kp.publicKey = sk.pk := by
      cases hkp : o₀.kp with
      | pub k => rw [hkp] at hp; cases hp
      | pri k => rw [hkp] at hp; cases hp; rfl
    rw [hpk] at hk
    refine Same.lift_next fun _ _ => ?_
    dsimp only
    split
    · exact Same.fail _
    refine Same.next (decryptStep_same g fuel sk _ (hE.imp_right fun h => h.imp_right fun h => h sk hp)) fun m => Same.bind (hash_same' L (by simpa using hlab)) fun lh lh' h => ?_
    rw [← h.1]
    refine Same.lift_next fun em _ => ?_
    have hem := length_fitTo sk.pk.modulusLen em
    refine Same.lift_next fun e0 _ => ?_
    split
    · exact Same.fail _
    refine Same.lift_next fun seed hseed => Same.lift_next fun db hdb => ?_
    have s1 := (slice_le hseed).1
    have s2 := (slice_le hdb).1
    rw [hem] at s1 s2
    refine Same.bind (mask_same L hs seed db (by omega)) fun seed2 seed2' h2 => ?_
    rw [← h2.1]
    have s3 := h2.2
    refine Same.bind (mask_same L hs db seed2 (by omega)) fun db2 db2' h3 => ?_
    rw [← h3.1]
    refine Same.lift_next fun lhash2 _ => ?_
    split
    · exact Same.fail _
    exact Same.lift_next fun idx _ => Same.next Same.clear fun _ => Same.extend _

end OAEP

/-! ## PSS -/

namespace PSS

/-- An object with the same fixed parts and a hash object that has only been used through its interface. -/
structure Like (Abs Chk : S → Bytes → Prop) (o₀ o : Model.PSS.Obj σ S) : Prop where
  kp : o.kp = o₀.kp
  blinding : o.blinding = o₀.blinding
  slen : o.slen = o₀.slen
  good : ∃ x, Abs o.hf x ∨ Chk o.hf x

/-- Two such objects; if `E`, then also with the same state of the random source. -/
def Twin (E : Prop) (Abs Chk : S → Bytes → Prop) (o₀ o1 o2 : Model.PSS.Obj σ S) : Prop :=
  Like Abs Chk o₀ o1 ∧ Like Abs Chk o₀ o2 ∧ (E → o1.rd = o2.rd)

variable {E : Prop} {o₀ : Model.PSS.Obj σ S}

theorem checkStep_same (g : Rng σ) (fuel : Nat) (sk : RSA.PrivateKey) (c : Nat) (hE : E ∨ o₀.blinding = false ∨ Sound g fuel sk) :
    Same (Twin E Abs Chk o₀) Eq (checkStep g fuel sk c) (checkStep g fuel sk c) := by
  rintro o1 o2 b ⟨l1, l2, hr⟩
  unfold run checkStep
  rw [l1.blinding, l2.blinding]
  rcases hE with hE | hE | hE
  · rw [hr hE]
    exact ⟨⟨⟨l1.kp, rfl, l1.slen, l1.good⟩, ⟨l2.kp, rfl, l2.slen, l2.good⟩, fun _ => rfl⟩, rfl, ResRel.refl fun _ => rfl⟩
  · rw [hE]
    simp only [Bool.false_eq_true, if_false, rawCheck_none, Option.getD_none]
    exact ⟨⟨⟨l1.kp, hE.symm, l1.slen, l1.good⟩, ⟨l2.kp, hE.symm, l2.slen, l2.good⟩, hr⟩, trivial, ResRel.refl fun _ => rfl⟩
  · have e := rawCheck_sound hE c (if o₀.blinding then some o1.rd else none) (if o₀.blinding then some o2.rd else none)
    refine ⟨⟨⟨l1.kp, rfl, l1.slen, l1.good⟩, ⟨l2.kp, rfl, l2.slen, l2.good⟩, fun h => ?_⟩, rfl, ?_⟩
    · rw [hr h]
    · dsimp only
      rw [e]
      exact ResRel.refl fun _ => rfl

theorem hash_same' (L : LawfulDigest d H bs size Abs Chk) {parts : List Bytes} (hl : parts.flatten.length < 2 ^ 64) :
    Same (Twin E Abs Chk o₀) (fun x y => x = y ∧ x = H parts.flatten) (hash d parts) (hash d parts) := by
  rintro o1 o2 b ⟨l1, l2, hr⟩
  obtain ⟨hf1, e1, g1⟩ := hash_same L l1.good hl
  obtain ⟨hf2, e2, g2⟩ := hash_same L l2.good hl
  unfold run hash
  rw [e1, e2]
  exact ⟨⟨⟨l1.kp, l1.blinding, l1.slen, g1⟩, ⟨l2.kp, l2.blinding, l2.slen, g2⟩, hr⟩, rfl, rfl, rfl⟩

theorem mask_same (L : LawfulDigest d H bs size Abs Chk) (hs : 0 < size) (out seed : Bytes) (hl : seed.length + 4 < 2 ^ 64) :
    Same (Twin E Abs Chk o₀) (fun x y => x = y ∧ x.length ≤ out.length) (mask d out seed) (mask d out seed) := by
  rintro o1 o2 b ⟨l1, l2, hr⟩
  obtain ⟨hf1, e1, g1⟩ := mgf1Xor_eq L hs l1.good out seed hl
  obtain ⟨hf2, e2, g2⟩ := mgf1Xor_eq L hs l2.good out seed hl
  unfold run mask
  rw [e1, e2]
  exact ⟨⟨⟨l1.kp, l1.blinding, l1.slen, g1⟩, ⟨l2.kp, l2.blinding, l2.slen, g2⟩, hr⟩, rfl, rfl, by rw [length_xorBytes]; exact Nat.min_le_left _ _⟩

theorem copyInto_same (i j : Nat) (x : Bytes) : Same (Twin E Abs Chk o₀) Eq (copyInto i j x) (copyInto i j x) := by
  intro o1 o2 b hr
  unfold run copyInto
  split
  · exact ⟨hr, rfl, rfl⟩
  · exact ⟨hr, rfl, rfl⟩

theorem put_same (i : Nat) (x : Byte) : Same (Twin E Abs Chk o₀) Eq (put i x) (put i x) := by
  intro o1 o2 b hr
  unfold run put
  split
  · exact ⟨hr, rfl, rfl⟩
  · exact ⟨hr, rfl, rfl⟩

theorem encode_same (L : LawfulDigest d H bs size Abs Chk) (hs : 0 < size) (debug : Bool) (m : Bytes) (emBits : Nat) (salt : Bytes) (hm : m.length < 2 ^ 64)
    (hb : 8 + size + salt.length < 2 ^ 64) : Same (Twin E Abs Chk o₀) Eq (encode debug d m emBits salt) (encode debug d m emBits salt) := by
  unfold encode
  refine Same.self_bind fun o1 o2 ⟨l1, l2, _⟩ => ?_
  obtain ⟨x1, g1⟩ := l1.good
  obtain ⟨x2, g2⟩ := l2.good
  rw [hLen_eq L g1, hLen_eq L g2]
  dsimp only
  split
  · exact Same.fail _
  refine Same.next Same.clear fun _ => Same.next (Same.resize _) fun _ => Same.bind (hash_same' L (by simpa using hm)) fun a1 a2 h => ?_
  rw [← h.1]
  split
  · exact Same.fail _
  refine Same.bind (hash_same' L ?_) fun buf buf' h2 => ?_
  · have : a1.length = size := by rw [h.2]; exact L.length _
    simp only [List.flatten_cons, List.flatten_nil, List.length_append, List.length_replicate, List.length_nil]; omega
  rw [← h2.1]
  have hbl : buf.length = size := by rw [h2.2]; exact L.length _
  refine Same.next (copyInto_same _ _ _) fun _ => Same.next (put_same _ _) fun _ => Same.next (copyInto_same _ _ _) fun _ => Same.next Same.buffer fun em =>
    Same.bind (mask_same L hs _ buf (by omega)) fun db db' h3 => ?_
  rw [← h3.1]
  exact Same.next (copyInto_same _ _ _) fun _ => Same.lift_next fun z _ => Same.lift_next fun mk _ => Same.next Same.buffer fun em2 =>
    Same.lift_next fun e0 _ => Same.next (put_same _ _) fun _ => put_same _ _

theorem sign_same (L : LawfulDigest d H bs size Abs Chk) (hs : 0 < size) (debug : Bool) (g : Rng σ) (fuel : Nat) (m : Bytes) (hm : m.length < 2 ^ 64)
    (hb : 8 + size + o₀.slen < 2 ^ 64) (hE : E) : Same (Twin E Abs Chk o₀) Eq (sign debug g fuel d m) (sign debug g fuel d m) := by
  unfold sign
  refine Same.self_bind fun o1 o2 ⟨l1, l2, hr⟩ => ?_
  rw [l1.slen, l2.slen, hr hE]
  dsimp only
  have hc : ∀ n, Same (Twin E Abs Chk o₀) Eq (change fun o => { o with rd := (drawWords g n o.rd).2 }) (change fun o => { o with rd := (drawWords g n o.rd).2 }) := by
    rintro n p1 p2 b ⟨l1, l2, hr⟩
    refine ⟨⟨⟨l1.kp, l1.blinding, l1.slen, l1.good⟩, ⟨l2.kp, l2.blinding, l2.slen, l2.good⟩, fun _ => ?_⟩, rfl, rfl⟩
    simp only [change_run, hr hE]
  refine Same.next (hc _) fun _ => ?_
  unfold signWithSalt
  refine Same.self_bind fun o1 o2 ⟨l1, l2, hr⟩ => ?_
  rw [l1.kp, l2.kp]
  dsimp only
  refine Same.next (encode_same L hs debug m _ _ hm (by rw [List.length_take]; omega)) fun _ => Same.next Same.buffer fun em => ?_
  cases o₀.kp.privateKey with
  | none => exact Same.fail _
  | some sk =>
    exact Same.next (checkStep_same g fuel sk _ (Or.inl hE)) fun c => Same.next Same.clear fun _ => Same.next (Same.resize _) fun _ => Same.extend _

theorem verifyEM_same (L : LawfulDigest d H bs size Abs Chk) (hs : 0 < size) (debug : Bool) (em m : Bytes) (emBits : Nat) (hm : m.length < 2 ^ 64)
    (hem : em.length + 4 < 2 ^ 64) (hb : 8 + size + o₀.slen < 2 ^ 64) :
    Same (Twin E Abs Chk o₀) Eq (verifyEM debug d em m emBits) (verifyEM debug d em m emBits) := by
  unfold verifyEM
  refine Same.self_bind fun o1 o2 ⟨l1, l2, _⟩ => ?_
  obtain ⟨x1, g1⟩ := l1.good
  obtain ⟨x2, g2⟩ := l2.good
  rw [l1.slen, l2.slen, hLen_eq L g1, hLen_eq L g2]
  dsimp only
  refine Same.bind (hash_same' L (by simpa using hm)) fun mh mh' h => ?_
  rw [← h.1]
  have hml : mh.length = size := by rw [h.2]; exact L.length _
  split
  · exact Same.fail _
  split
  · exact Same.fail _
  refine Same.lift_next fun last _ => ?_
  split
  · exact Same.fail _
  refine Same.lift_next fun e0 _ => Same.lift_next fun z _ => Same.lift_next fun sh _ => Same.lift_next fun hi _ => ?_
  split
  · exact Same.fail _
  refine Same.lift_next fun db _ => Same.lift_next fun hh hhh => ?_
  have s1 := (slice_le hhh).1
  refine Same.bind (mask_same L hs db hh (by omega)) fun db2 db2' h2 => ?_
  rw [← h2.1]
  refine Same.lift_next fun t _ => Same.lift_next fun mk _ => Same.lift_next fun db3 _ => ?_
  split
  · exact Same.fail _
  refine Same.lift_next fun sep _ => ?_
  split
  · exact Same.fail _
  refine Same.lift_next fun salt hsalt => ?_
  have s2 := (slice_le hsalt).2
  refine Same.bind (hash_same' L ?_) fun a a' h3 => ?_
  · simp only [List.flatten_cons, List.flatten_nil, List.length_append, List.length_replicate, List.length_nil]; omega
  rw [← h3.1]
  split
  · exact Same.fail _
  · exact Same.pure rfl

theorem verify_same (L : LawfulDigest d H bs size Abs Chk) (hs : 0 < size) (debug : Bool) (sig m : Bytes) (hm : m.length < 2 ^ 64)
    (hk : o₀.kp.publicKey.modulusLen + 4 < 2 ^ 64) (hb : 8 + size + o₀.slen < 2 ^ 64) :
    Same (Twin E Abs Chk o₀) Eq (verify debug d sig m) (verify debug d sig m) := by
  unfold verify
  refine Same.self_bind fun o1 o2 ⟨l1, l2, _⟩ => ?_
  rw [l1.kp, l2.kp]
  dsimp only
  split
  · exact Same.fail _
  split
  · exact Same.fail _
  refine verifyEM_same L hs debug _ m _ hm ?_ hb
  rw [length_fitTo]
  unfold PublicKey.modulusLen at hk
  rw [Nat.shiftRight_eq_div_pow] at hk ⊢
  omega

end PSS

end Verif.Model.RSAObj
