import Verif.Model.RSAObj
import Verif.Proof.PSS
import Verif.Proof.OAEP

/-! Helper lemmas: the RSA objects with the caller's buffer -/

namespace Verif.Model.RSAObj
open Verif.Model.RSA
open Meth

variable {σ S ω α β : Type}

/-- The result of a call as the models without buffer give it: object and output, or the error alone. -/
def value (r : ω × Bytes × Res Unit) : Res (ω × Bytes) := r.2.2.map fun _ => (r.1, r.2.1)

theorem ok_bind (a : α) (f : α → Res β) : ((Except.ok a : Res α) >>= f) = f a := rfl

theorem bind_run (m : Meth ω α) (f : α → Meth ω β) (o : ω) (b : Bytes) :
    (m >>= f).run o b = match m.run o b with
      | (o, b, .ok a) => (f a).run o b
      | (o, b, .error e) => (o, b, .error e) := rfl

theorem self_run (o : ω) (b : Bytes) : (self : Meth ω ω).run o b = (o, b, .ok o) := rfl
theorem change_run (c : ω → ω) (o : ω) (b : Bytes) : (change c).run o b = (c o, b, .ok ()) := rfl
theorem buffer_run (o : ω) (b : Bytes) : (buffer : Meth ω Bytes).run o b = (o, b, .ok b) := rfl
theorem write_run (c : Bytes → Bytes) (o : ω) (b : Bytes) : (write c : Meth ω Unit).run o b = (o, c b, .ok ()) := rfl
theorem clear_run (o : ω) (b : Bytes) : (clear : Meth ω Unit).run o b = (o, [], .ok ()) := rfl
theorem extend_run (x : Bytes) (o : ω) (b : Bytes) : (extend x : Meth ω Unit).run o b = (o, b ++ x, .ok ()) := rfl
theorem resize_run (n : Nat) (o : ω) (b : Bytes) : (resize n : Meth ω Unit).run o b = (o, b.take n ++ List.replicate (n - b.length) 0#8, .ok ()) := rfl
theorem fail_run (e : Fault) (o : ω) (b : Bytes) : (fail e : Meth ω α).run o b = (o, b, .error e) := rfl
theorem pure_run (a : α) (o : ω) (b : Bytes) : (pure a : Meth ω α).run o b = (o, b, .ok a) := rfl
theorem lift_run (r : Res α) (o : ω) (b : Bytes) : (lift r : Meth ω α).run o b = (o, b, r) := rfl

/-! ## The raw operation -/

theorem rawDecrypt_value (g : Rng σ) (fuel : Nat) (sk : RSA.PrivateKey) (c : Nat) (rd : Option σ) :
    sk.decrypt g fuel c rd = (rawDecrypt g fuel sk c rd).2.map fun m => (m, (rawDecrypt g fuel sk c rd).1) := by
  unfold rawDecrypt PrivateKey.decrypt
  split
  · rfl
  · split
    · rfl
    · cases rd with
      | none => dsimp only; cases sk.raw c <;> rfl
      | some s =>
        dsimp only
        rcases blindLoop g sk.pk.n fuel s with e | ⟨r, ir, s'⟩
        · rfl
        · dsimp only [bind, Except.bind]
          cases sk.raw (powMod r sk.pk.e sk.pk.n * c % sk.pk.n) <;> rfl

theorem rawCheck_value (g : Rng σ) (fuel : Nat) (sk : RSA.PrivateKey) (c : Nat) (rd : Option σ) :
    sk.decryptAndCheck g fuel c rd = (rawCheck g fuel sk c rd).2.map fun m => (m, (rawCheck g fuel sk c rd).1) := by
  unfold PrivateKey.decryptAndCheck rawCheck
  rw [rawDecrypt_value]
  rcases rawDecrypt g fuel sk c rd with ⟨rd', e | m⟩
  · rfl
  · rcases m with _ | m | m
    · rfl
    · simp only [Except.map, bind, Except.bind]
      split <;> rfl
    · rfl

/-- The random source the caller sees after the raw operation with or without blinding. -/
theorem rawDecrypt_step (g : Rng σ) (fuel : Nat) (sk : RSA.PrivateKey) (c : Nat) (bl : Bool) (rd : σ) :
    Model.PKCS1.rawDecrypt g fuel sk bl rd c = (rawDecrypt g fuel sk c (if bl then some rd else none)).2.map
      fun m => (m, (rawDecrypt g fuel sk c (if bl then some rd else none)).1.getD rd) := by
  unfold Model.PKCS1.rawDecrypt
  rw [rawDecrypt_value]
  rcases rawDecrypt g fuel sk c (if bl then some rd else none) with ⟨rd', e | m⟩ <;> rfl

theorem rawCheck_step (g : Rng σ) (fuel : Nat) (sk : RSA.PrivateKey) (c : Nat) (bl : Bool) (rd : σ) :
    Model.PKCS1.rawSign g fuel sk bl rd c = (rawCheck g fuel sk c (if bl then some rd else none)).2.map
      fun m => (m, (rawCheck g fuel sk c (if bl then some rd else none)).1.getD rd) := by
  unfold Model.PKCS1.rawSign
  rw [rawCheck_value]
  rcases rawCheck g fuel sk c (if bl then some rd else none) with ⟨rd', e | m⟩ <;> rfl

/-! ## PKCS #1 v1.5 -/

namespace PKCS1

theorem decryptStep_run (g : Rng σ) (fuel : Nat) (sk : RSA.PrivateKey) (c : Nat) (o : Model.PKCS1.Obj σ S) (b : Bytes) :
    (∃ rd e, (decryptStep g fuel sk c).run o b = ({ o with rd := rd }, b, .error e) ∧ Model.PKCS1.rawDecrypt g fuel sk o.blinding o.rd c = .error e) ∨
    ∃ rd m, (decryptStep g fuel sk c).run o b = ({ o with rd := rd }, b, .ok m) ∧ Model.PKCS1.rawDecrypt g fuel sk o.blinding o.rd c = .ok (m, rd) := by
  rw [rawDecrypt_step]
  unfold run decryptStep
  rcases rawDecrypt g fuel sk c (if o.blinding then some o.rd else none) with ⟨rd', e | m⟩
  · exact Or.inl ⟨_, e, rfl, rfl⟩
  · exact Or.inr ⟨_, m, rfl, rfl⟩

theorem checkStep_run (g : Rng σ) (fuel : Nat) (sk : RSA.PrivateKey) (c : Nat) (o : Model.PKCS1.Obj σ S) (b : Bytes) :
    (∃ rd e, (checkStep g fuel sk c).run o b = ({ o with rd := rd }, b, .error e) ∧ Model.PKCS1.rawSign g fuel sk o.blinding o.rd c = .error e) ∨
    ∃ rd m, (checkStep g fuel sk c).run o b = ({ o with rd := rd }, b, .ok m) ∧ Model.PKCS1.rawSign g fuel sk o.blinding o.rd c = .ok (m, rd) := by
  rw [rawCheck_step]
  unfold run checkStep
  rcases rawCheck g fuel sk c (if o.blinding then some o.rd else none) with ⟨rd', e | m⟩
  · exact Or.inl ⟨_, e, rfl, rfl⟩
  · exact Or.inr ⟨_, m, rfl, rfl⟩

theorem hash_run (d : Digest S) (parts : List Bytes) (o : Model.PKCS1.Obj σ S) (b : Bytes) :
    (∃ e, (hash d parts).run o b = (o, b, .error e) ∧ hashParts d o.hf parts = .error e) ∨
    ∃ hf x, (hash d parts).run o b = ({ o with hf := hf }, b, .ok x) ∧ hashParts d o.hf parts = .ok (hf, x) := by
  unfold run hash
  rcases hashParts d o.hf parts with e | ⟨hf, x⟩
  · exact Or.inl ⟨e, rfl, rfl⟩
  · exact Or.inr ⟨hf, x, rfl, rfl⟩

/-- `decrypt` agrees with the model without buffer; a refusal leaves the buffer and all but the random source alone. -/
theorem decrypt_run (g : Rng σ) (fuel : Nat) (c : Bytes) (o : Model.PKCS1.Obj σ S) (b : Bytes) :
    (∃ rd e, (decrypt g fuel c).run o b = ({ o with rd := rd }, b, .error e) ∧ Model.PKCS1.decrypt g fuel o c = .error e) ∨
    ∃ rd m, (decrypt g fuel c).run o b = ({ o with rd := rd }, m, .ok ()) ∧ Model.PKCS1.decrypt g fuel o c = .ok ({ o with rd := rd }, m) := by
  unfold decrypt Model.PKCS1.decrypt
  rw [bind_run, self_run]
  dsimp only
  by_cases h1 : o.kp.publicKey.modulusLen ≤ 11
  · rw [if_pos h1, if_pos h1]; exact Or.inl ⟨o.rd, _, rfl, rfl⟩
  rw [if_neg h1, if_neg h1]
  by_cases h2 : o.kp.publicKey.modulusLen ≠ c.length
  · rw [if_pos h2, if_pos h2]; exact Or.inl ⟨o.rd, _, rfl, rfl⟩
  rw [if_neg h2, if_neg h2]
  cases hp : o.kp.privateKey with
  | none => exact Or.inl ⟨o.rd, _, rfl, rfl⟩
  | some sk =>
    dsimp only
    rw [bind_run, lift_run]
    rcases sk.pk.isValid with e | _
    · exact Or.inl ⟨o.rd, e, rfl, rfl⟩
    dsimp only [bind, Except.bind]
    rcases decryptStep_run g fuel sk (beNat c) o b with ⟨rd, e, h1, h2⟩ | ⟨rd, m, h1, h2⟩
    · refine Or.inl ⟨rd, e, ?_, by rw [h2]⟩
      erw [bind_run, h1]
    rw [h2]
    erw [bind_run, h1]
    dsimp only
    erw [bind_run, lift_run]
    rcases BigInt.toBeBytes m with e | em
    · exact Or.inl ⟨rd, e, rfl, rfl⟩
    dsimp only
    erw [bind_run, lift_run]
    rcases Model.PKCS1.unpad (fitTo o.kp.publicKey.modulusLen em) with e | msg
    · exact Or.inl ⟨rd, e, rfl, rfl⟩
    · exact Or.inr ⟨rd, msg, rfl, rfl⟩

/-- The padding loop: the same bytes as in the model without buffer, pushed into the buffer. -/
theorem padLoop_run (g : Rng σ) (bound fuel : Nat) (o : Model.PKCS1.Obj σ S) (b : Bytes) :
    (∃ rd b', (padLoop g bound fuel).run o b = ({ o with rd := rd }, b', .error .diverge) ∧ Model.PKCS1.padLoop g bound fuel b o.rd = .error .diverge) ∨
    ∃ rd em, (padLoop g bound fuel).run o b = ({ o with rd := rd }, em, .ok ()) ∧ Model.PKCS1.padLoop g bound fuel b o.rd = .ok (em, rd) := by
  induction fuel generalizing o b with
  | zero => exact Or.inl ⟨o.rd, b, rfl, rfl⟩
  | succ fuel ih =>
    unfold padLoop Model.PKCS1.padLoop
    simp only [bind_run, self_run, change_run, extend_run, buffer_run]
    split
    · exact Or.inr ⟨_, _, rfl, rfl⟩
    · exact ih { o with rd := (g.word o.rd).2 } (b ++ (be32 (g.word o.rd).1).filter (· ≠ 0#8))

/-- `encrypt`: the buffer is empty after an error, unless the source never delivers enough bytes. -/
theorem encrypt_run (g : Rng σ) (fuel : Nat) (msg : Bytes) (o : Model.PKCS1.Obj σ S) (b : Bytes) :
    (∃ e, (encrypt g fuel msg).run o b = (o, [], .error e) ∧ Model.PKCS1.encrypt g fuel o msg = .error e) ∨
    (∃ rd b', (encrypt g fuel msg).run o b = ({ o with rd := rd }, b', .error .diverge) ∧ Model.PKCS1.encrypt g fuel o msg = .error .diverge) ∨
    ∃ rd m, (encrypt g fuel msg).run o b = ({ o with rd := rd }, m, .ok ()) ∧ Model.PKCS1.encrypt g fuel o msg = .ok ({ o with rd := rd }, m) := by
  unfold encrypt Model.PKCS1.encrypt
  simp only [bind_run, clear_run]
  by_cases h0 : msg.isEmpty = true
  · rw [if_pos h0, if_pos h0]; exact Or.inr (Or.inr ⟨o.rd, [], rfl, rfl⟩)
  rw [if_neg h0, if_neg h0]
  simp only [bind_run, self_run, lift_run]
  rcases o.kp.publicKey.isValid with e | _
  · exact Or.inl ⟨e, rfl, rfl⟩
  simp only [ok_bind]
  by_cases h1 : msg.length > o.kp.publicKey.modulusLen - 11
  · rw [if_pos h1, if_pos h1]; exact Or.inl ⟨_, rfl, rfl⟩
  rw [if_neg h1, if_neg h1]
  simp only [bind_run, extend_run, List.nil_append, List.cons_append]
  rcases padLoop_run g (o.kp.publicKey.modulusLen - msg.length - 3 + 2) fuel o [0x00#8, 0x02#8] with ⟨rd, b', h2, h3⟩ | ⟨rd, em, h2, h3⟩
  · rw [h2, h3]
    exact Or.inr (Or.inl ⟨rd, b', rfl, rfl⟩)
  · rw [h2, h3]
    refine Or.inr (Or.inr ⟨rd, padTo o.kp.publicKey.modulusLen
      (natBytes (o.kp.publicKey.encrypt (beNat (em.take (o.kp.publicKey.modulusLen - msg.length - 3 + 2) ++ [0x00#8] ++ msg)))), ?_, rfl⟩)
    simp only [write_run, buffer_run, clear_run, resize_run, List.take_nil, List.length_nil, Nat.sub_zero, List.nil_append, padTo]

/-- `sign`: an error leaves the buffer alone, unless it is the private-key operation that fails. -/
theorem sign_run (g : Rng σ) (fuel : Nat) (d : Digest S) (msg : Bytes) (o : Model.PKCS1.Obj σ S) (b : Bytes) :
    (∃ e, (sign g fuel d msg).run o b = (o, b, .error e) ∧ Model.PKCS1.sign g fuel d o msg = .error e) ∨
    (∃ o' b' e, (sign g fuel d msg).run o b = (o', b', .error e) ∧ Model.PKCS1.sign g fuel d o msg = .error e ∧
      ((∃ e, hashParts d o.hf [msg] = .error e) ∨ ∃ sk pre hf dig, o.kp.privateKey = some sk ∧ Model.PKCS1.hashPrefix o.ty = .ok pre ∧
        hashParts d o.hf [msg] = .ok (hf, dig) ∧ ¬ sk.pk.modulusLen < pre.length + hLen d o.hf + 11 ∧
        b' = [0x00#8, 0x01#8] ++ List.replicate (sk.pk.modulusLen - (pre.length + hLen d o.hf) - 3) 0xff#8 ++ [0x00#8] ++ pre ++ dig ∧
        Model.PKCS1.rawSign g fuel sk o.blinding o.rd (beNat b') = .error e)) ∨
    ∃ o' m, (sign g fuel d msg).run o b = (o', m, .ok ()) ∧ Model.PKCS1.sign g fuel d o msg = .ok (o', m) := by
  unfold sign Model.PKCS1.sign
  simp only [bind_run, self_run, lift_run]
  rcases hpre : Model.PKCS1.hashPrefix o.ty with e | pre
  · exact Or.inl ⟨e, rfl, rfl⟩
  simp only [ok_bind]
  cases hp : o.kp.privateKey with
  | none => exact Or.inl ⟨_, rfl, rfl⟩
  | some sk =>
    dsimp only
    by_cases h1 : sk.pk.modulusLen < pre.length + hLen d o.hf + 11
    · rw [if_pos h1, if_pos h1]; exact Or.inl ⟨_, rfl, rfl⟩
    rw [if_neg h1, if_neg h1]
    simp only [bind_run, clear_run, extend_run, List.nil_append]
    rcases hash_run d [msg] o (([0x00#8] ++ [0x01#8]) ++ List.replicate (sk.pk.modulusLen - (pre.length + hLen d o.hf) - 3) 0xff#8 ++ [0x00#8] ++ pre)
      with ⟨e, h2, h3⟩ | ⟨hf, dig, h2, h3⟩
    · rw [h2, h3]
      exact Or.inr (Or.inl ⟨_, _, e, rfl, rfl, Or.inl ⟨e, rfl⟩⟩)
    rw [h2, h3]
    simp only [buffer_run, ok_bind]
    rcases checkStep_run g fuel sk (beNat ([0x00#8] ++ [0x01#8] ++ List.replicate (sk.pk.modulusLen - (pre.length + hLen d o.hf) - 3) 0xff#8 ++ [0x00#8] ++ pre ++ dig))
      { o with hf := hf } ([0x00#8] ++ [0x01#8] ++ List.replicate (sk.pk.modulusLen - (pre.length + hLen d o.hf) - 3) 0xff#8 ++ [0x00#8] ++ pre ++ dig)
      with ⟨rd, e, h4, h5⟩ | ⟨rd, c, h4, h5⟩
    · rw [h4]
      refine Or.inr (Or.inl ⟨_, _, e, rfl, ?_, Or.inr ⟨sk, pre, hf, dig, rfl, rfl, rfl, h1, rfl, h5⟩⟩)
      have : Model.PKCS1.rawSign g fuel sk o.blinding o.rd (beNat ([0x00#8, 0x01#8] ++ List.replicate (sk.pk.modulusLen - (pre.length + hLen d o.hf) - 3) 0xff#8 ++ [0x00#8] ++ pre ++ dig)) = .error e := h5
      rw [this]
      rfl
    · rw [h4]
      refine Or.inr (Or.inr ⟨{ o with hf := hf, rd := rd }, padTo sk.pk.modulusLen (natBytes c), ?_, ?_⟩)
      · simp only [resize_run, List.take_nil, List.length_nil, Nat.sub_zero, List.nil_append, padTo]
      · have : Model.PKCS1.rawSign g fuel sk o.blinding o.rd (beNat ([0x00#8, 0x01#8] ++ List.replicate (sk.pk.modulusLen - (pre.length + hLen d o.hf) - 3) 0xff#8 ++ [0x00#8] ++ pre ++ dig)) = .ok (c, rd) := h5
        rw [this]
        rfl

/-- `verify` only changes the hash object. -/
theorem verify_run (d : Digest S) (sig msg : Bytes) (o : Model.PKCS1.Obj σ S) (b : Bytes) :
    (∃ hf e, (verify d sig msg).run o b = ({ o with hf := hf }, b, .error e) ∧ Model.PKCS1.verify d o sig msg = .error e) ∨
    ∃ hf, (verify d sig msg).run o b = ({ o with hf := hf }, b, .ok ()) ∧ Model.PKCS1.verify d o sig msg = .ok { o with hf := hf } := by
  unfold verify Model.PKCS1.verify
  simp only [bind_run, self_run, lift_run]
  rcases Model.PKCS1.hashPrefix o.ty with e | pre
  · exact Or.inl ⟨o.hf, e, rfl, rfl⟩
  simp only [ok_bind]
  by_cases h1 : o.kp.publicKey.modulusLen < pre.length + hLen d o.hf + 11
  · rw [if_pos h1, if_pos h1]; exact Or.inl ⟨o.hf, _, rfl, rfl⟩
  rw [if_neg h1, if_neg h1]
  generalize fitTo o.kp.publicKey.modulusLen (natBytes (o.kp.publicKey.encrypt (beNat sig))) = em
  simp only [bind_run, lift_run]
  rcases index em 0 with e | e0
  · exact Or.inl ⟨o.hf, e, rfl, rfl⟩
  simp only [ok_bind]
  rcases index em 1 with e | e1
  · exact Or.inl ⟨o.hf, e, rfl, rfl⟩
  simp only [ok_bind]
  rcases slice em (o.kp.publicKey.modulusLen - (pre.length + hLen d o.hf)) (o.kp.publicKey.modulusLen - hLen d o.hf) with e | p
  · exact Or.inl ⟨o.hf, e, rfl, rfl⟩
  simp only [ok_bind]
  rcases index em (o.kp.publicKey.modulusLen - (pre.length + hLen d o.hf) - 1) with e | sep
  · exact Or.inl ⟨o.hf, e, rfl, rfl⟩
  simp only [ok_bind]
  by_cases h2 : e0 ≠ 0x00#8 ∨ e1 ≠ 0x01#8 ∨ p ≠ pre ∨ sep ≠ 0x00#8
  · rw [if_pos h2, if_pos h2]; exact Or.inl ⟨o.hf, _, rfl, rfl⟩
  rw [if_neg h2, if_neg h2]
  simp only [bind_run]
  rcases hash_run d [msg] o b with ⟨e, h3, h4⟩ | ⟨hf, dig, h3, h4⟩
  · rw [h3, h4]; exact Or.inl ⟨o.hf, e, rfl, rfl⟩
  rw [h3, h4]
  simp only [lift_run, ok_bind]
  rcases slice em (o.kp.publicKey.modulusLen - hLen d o.hf) em.length with e | t
  · exact Or.inl ⟨hf, e, rfl, rfl⟩
  simp only [ok_bind]
  by_cases h5 : t ≠ dig
  · rw [if_pos h5, if_pos h5]; exact Or.inl ⟨hf, _, rfl, rfl⟩
  rw [if_neg h5, if_neg h5]
  split
  · exact Or.inl ⟨hf, _, rfl, rfl⟩
  · exact Or.inr ⟨hf, rfl, rfl⟩

end PKCS1

/-! ## OAEP -/

namespace OAEP

theorem decryptStep_run (g : Rng σ) (fuel : Nat) (sk : RSA.PrivateKey) (c : Nat) (o : Model.OAEP.Obj σ S) (b : Bytes) :
    (∃ rd e, (decryptStep g fuel sk c).run o b = ({ o with rd := rd }, b, .error e) ∧ Model.PKCS1.rawDecrypt g fuel sk o.blinding o.rd c = .error e) ∨
    ∃ rd m, (decryptStep g fuel sk c).run o b = ({ o with rd := rd }, b, .ok m) ∧ Model.PKCS1.rawDecrypt g fuel sk o.blinding o.rd c = .ok (m, rd) := by
  rw [rawDecrypt_step]
  unfold run decryptStep
  rcases rawDecrypt g fuel sk c (if o.blinding then some o.rd else none) with ⟨rd', e | m⟩
  · exact Or.inl ⟨_, e, rfl, rfl⟩
  · exact Or.inr ⟨_, m, rfl, rfl⟩

theorem hash_run (d : Digest S) (parts : List Bytes) (o : Model.OAEP.Obj σ S) (b : Bytes) :
    (∃ e, (hash d parts).run o b = (o, b, .error e) ∧ hashParts d o.hf parts = .error e) ∨
    ∃ hf x, (hash d parts).run o b = ({ o with hf := hf }, b, .ok x) ∧ hashParts d o.hf parts = .ok (hf, x) := by
  unfold run hash
  rcases hashParts d o.hf parts with e | ⟨hf, x⟩
  · exact Or.inl ⟨e, rfl, rfl⟩
  · exact Or.inr ⟨hf, x, rfl, rfl⟩

theorem mask_run (d : Digest S) (out seed : Bytes) (o : Model.OAEP.Obj σ S) (b : Bytes) :
    (∃ e, (mask d out seed).run o b = (o, b, .error e) ∧ mgf1Xor d o.hf out seed = .error e) ∨
    ∃ hf x, (mask d out seed).run o b = ({ o with hf := hf }, b, .ok x) ∧ mgf1Xor d o.hf out seed = .ok (hf, x) := by
  unfold run mask
  rcases mgf1Xor d o.hf out seed with e | ⟨hf, x⟩
  · exact Or.inl ⟨e, rfl, rfl⟩
  · exact Or.inr ⟨hf, x, rfl, rfl⟩

theorem draw_run (g : Rng σ) (n : Nat) (o : Model.OAEP.Obj σ S) (b : Bytes) :
    (draw g n).run o b = ({ o with rd := (drawWords g n o.rd).2 }, b, .ok (drawWords g n o.rd).1) := rfl

/-- `encrypt` agrees with the model without buffer; an error leaves the buffer alone. -/
theorem encrypt_run (g : Rng σ) (d : Digest S) (msg : Bytes) (o : Model.OAEP.Obj σ S) (b : Bytes) :
    (∃ rd hf e, (encrypt g d msg).run o b = ({ o with rd := rd, hf := hf }, b, .error e) ∧ Model.OAEP.encrypt g d o msg = .error e) ∨
    ∃ rd hf m, (encrypt g d msg).run o b = ({ o with rd := rd, hf := hf }, m, .ok ()) ∧
      Model.OAEP.encrypt g d o msg = .ok ({ o with rd := rd, hf := hf }, m) := by
  unfold encrypt Model.OAEP.encrypt
  simp only [bind_run, self_run, lift_run]
  rcases o.kp.publicKey.isValid with e | _
  · exact Or.inl ⟨o.rd, o.hf, e, rfl, rfl⟩
  simp only [ok_bind]
  by_cases h1 : o.kp.publicKey.modulusLen < (hLen d o.hf <<< 1) + 2
  · rw [if_pos h1, if_pos h1]; exact Or.inl ⟨o.rd, o.hf, _, rfl, rfl⟩
  rw [if_neg h1, if_neg h1]
  by_cases h2 : msg.length > o.kp.publicKey.modulusLen - (hLen d o.hf <<< 1) - 2
  · rw [if_pos h2, if_pos h2]; exact Or.inl ⟨o.rd, o.hf, _, rfl, rfl⟩
  rw [if_neg h2, if_neg h2]
  simp only [bind_run]
  rcases hash_run d [o.label] o b with ⟨e, h3, h4⟩ | ⟨hf, lhash, h3, h4⟩
  · rw [h3, h4]; exact Or.inl ⟨o.rd, o.hf, e, rfl, rfl⟩
  rw [h3, h4]
  simp only [ok_bind, draw_run]
  rcases drawWords g ((hLen d o.hf + 3) >>> 1) o.rd with ⟨words, rd⟩
  dsimp only
  generalize List.take (hLen d o.hf + 1) (0x00#8 :: words) ++ lhash ++
    List.replicate (o.kp.publicKey.modulusLen - (msg.length + (hLen d o.hf <<< 1) + 2)) 0x00#8 ++ [0x01#8] ++ msg = em
  by_cases h5 : em.length ≠ o.kp.publicKey.modulusLen
  · rw [if_pos h5, if_pos h5]; exact Or.inl ⟨rd, hf, _, rfl, rfl⟩
  rw [if_neg h5, if_neg h5]
  simp only [bind_run, lift_run]
  rcases slice em 1 (hLen d o.hf + 1) with e | seed
  · exact Or.inl ⟨rd, hf, e, rfl, rfl⟩
  simp only [ok_bind]
  rcases slice em (1 + hLen d o.hf) o.kp.publicKey.modulusLen with e | db
  · exact Or.inl ⟨rd, hf, e, rfl, rfl⟩
  simp only [ok_bind]
  rcases mask_run d db seed { o with hf := hf, rd := rd } b with ⟨e, h6, h7⟩ | ⟨hf2, db2, h6, h7⟩
  · rw [h6]; dsimp only at h7; rw [h7]; exact Or.inl ⟨rd, hf, e, rfl, rfl⟩
  rw [h6]; dsimp only at h7; rw [h7]
  simp only [ok_bind]
  rcases mask_run d seed db2 { o with hf := hf2, rd := rd } b with ⟨e, h8, h9⟩ | ⟨hf3, seed2, h8, h9⟩
  · rw [h8]; dsimp only at h9; rw [h9]; exact Or.inl ⟨rd, hf2, e, rfl, rfl⟩
  rw [h8]; dsimp only at h9; rw [h9]
  simp only [ok_bind, clear_run]
  refine Or.inr ⟨rd, hf3, fitTo o.kp.publicKey.modulusLen (natBytes (o.kp.publicKey.encrypt (beNat (em.take 1 ++ seed2 ++ db2)))), ?_, rfl⟩
  unfold fitTo
  by_cases h10 : (natBytes (o.kp.publicKey.encrypt (beNat (em.take 1 ++ seed2 ++ db2)))).length < o.kp.publicKey.modulusLen
  · rw [if_pos h10, if_pos h10]
    simp only [bind_run, resize_run, extend_run, List.take_nil, List.length_nil, Nat.sub_zero, List.nil_append]
  · rw [if_neg h10, if_neg h10]
    simp only [extend_run, List.nil_append]

/-- `decrypt` agrees with the model without buffer; a refusal leaves the buffer alone. -/
theorem decrypt_run (g : Rng σ) (fuel : Nat) (d : Digest S) (c : Bytes) (o : Model.OAEP.Obj σ S) (b : Bytes) :
    (∃ rd hf e, (decrypt g fuel d c).run o b = ({ o with rd := rd, hf := hf }, b, .error e) ∧ Model.OAEP.decrypt g fuel d o c = .error e) ∨
    ∃ rd hf m, (decrypt g fuel d c).run o b = ({ o with rd := rd, hf := hf }, m, .ok ()) ∧
      Model.OAEP.decrypt g fuel d o c = .ok ({ o with rd := rd, hf := hf }, m) := by
  unfold decrypt Model.OAEP.decrypt
  by_cases h0 : c.isEmpty = true
  · rw [if_pos h0, if_pos h0]; exact Or.inl ⟨o.rd, o.hf, _, rfl, rfl⟩
  rw [if_neg h0, if_neg h0]
  simp only [bind_run, self_run]
  cases hp : o.kp.privateKey with
  | none => exact Or.inl ⟨o.rd, o.hf, _, rfl, rfl⟩
  | some sk =>
    simp only [bind_run, lift_run]
    rcases sk.pk.isValid with e | _
    · exact Or.inl ⟨o.rd, o.hf, e, rfl, rfl⟩
    simp only [ok_bind]
    by_cases h1 : sk.pk.modulusLen < c.length ∨ sk.pk.modulusLen < (hLen d o.hf <<< 1) + 2
    · rw [if_pos h1, if_pos h1]; exact Or.inl ⟨o.rd, o.hf, _, rfl, rfl⟩
    rw [if_neg h1, if_neg h1]
    simp only [bind_run]
    rcases decryptStep_run g fuel sk (beNat c) o b with ⟨rd, e, h2, h3⟩ | ⟨rd, m, h2, h3⟩
    · rw [h2, h3]; exact Or.inl ⟨rd, o.hf, e, rfl, rfl⟩
    rw [h2, h3]
    simp only [ok_bind]
    rcases hash_run d [o.label] { o with rd := rd } b with ⟨e, h4, h5⟩ | ⟨hf, lhash, h4, h5⟩
    · rw [h4]; dsimp only at h5; rw [h5]; exact Or.inl ⟨rd, o.hf, e, rfl, rfl⟩
    rw [h4]; dsimp only at h5; rw [h5]
    simp only [ok_bind, lift_run]
    rcases BigInt.toBeBytes m with e | em
    · exact Or.inl ⟨rd, hf, e, rfl, rfl⟩
    simp only [ok_bind]
    generalize fitTo sk.pk.modulusLen em = em
    rcases index em 0 with e | e0
    · exact Or.inl ⟨rd, hf, e, rfl, rfl⟩
    simp only [ok_bind]
    by_cases h6 : e0 ≠ 0x00#8
    · rw [if_pos h6, if_pos h6]; exact Or.inl ⟨rd, hf, _, rfl, rfl⟩
    rw [if_neg h6, if_neg h6]
    simp only [bind_run, lift_run]
    rcases slice em 1 (hLen d o.hf + 1) with e | seed
    · exact Or.inl ⟨rd, hf, e, rfl, rfl⟩
    simp only [ok_bind]
    rcases slice em (hLen d o.hf + 1) em.length with e | db
    · exact Or.inl ⟨rd, hf, e, rfl, rfl⟩
    simp only [ok_bind]
    rcases mask_run d seed db { o with hf := hf, rd := rd } b with ⟨e, h7, h8⟩ | ⟨hf2, seed2, h7, h8⟩
    · rw [h7]; dsimp only at h8; rw [h8]; exact Or.inl ⟨rd, hf, e, rfl, rfl⟩
    rw [h7]; dsimp only at h8; rw [h8]
    simp only [ok_bind]
    rcases mask_run d db seed2 { o with hf := hf2, rd := rd } b with ⟨e, h9, h10⟩ | ⟨hf3, db2, h9, h10⟩
    · rw [h9]; dsimp only at h10; rw [h10]; exact Or.inl ⟨rd, hf2, e, rfl, rfl⟩
    rw [h9]; dsimp only at h10; rw [h10]
    simp only [ok_bind]
    rcases slice db2 0 (hLen d o.hf) with e | lhash2
    · exact Or.inl ⟨rd, hf3, e, rfl, rfl⟩
    simp only [ok_bind]
    by_cases h11 : lhash ≠ lhash2
    · rw [if_pos h11, if_pos h11]; exact Or.inl ⟨rd, hf3, _, rfl, rfl⟩
    rw [if_neg h11, if_neg h11]
    simp only [bind_run, lift_run]
    rcases Model.OAEP.scan (db2.drop (hLen d o.hf)) with e | idx
    · exact Or.inl ⟨rd, hf3, e, rfl, rfl⟩
    · exact Or.inr ⟨rd, hf3, _, rfl, rfl⟩

end OAEP

/-! ## PSS -/

namespace PSS
open Verif.Spec.PKCS1 (pss clearTop mgf1)

variable {d : Digest S} {H : Bytes → Bytes} {bs : Option Nat} {size : Nat} {Abs Chk : S → Bytes → Prop}

theorem checkStep_run (g : Rng σ) (fuel : Nat) (sk : RSA.PrivateKey) (c : Nat) (o : Model.PSS.Obj σ S) (b : Bytes) :
    (∃ rd e, (checkStep g fuel sk c).run o b = ({ o with rd := rd }, b, .error e) ∧ Model.PKCS1.rawSign g fuel sk o.blinding o.rd c = .error e) ∨
    ∃ rd m, (checkStep g fuel sk c).run o b = ({ o with rd := rd }, b, .ok m) ∧ Model.PKCS1.rawSign g fuel sk o.blinding o.rd c = .ok (m, rd) := by
  rw [rawCheck_step]
  unfold run checkStep
  rcases rawCheck g fuel sk c (if o.blinding then some o.rd else none) with ⟨rd', e | m⟩
  · exact Or.inl ⟨_, e, rfl, rfl⟩
  · exact Or.inr ⟨_, m, rfl, rfl⟩

theorem hash_run (d : Digest S) (parts : List Bytes) (o : Model.PSS.Obj σ S) (b : Bytes) :
    (∃ e, (hash d parts).run o b = (o, b, .error e) ∧ hashParts d o.hf parts = .error e) ∨
    ∃ hf x, (hash d parts).run o b = ({ o with hf := hf }, b, .ok x) ∧ hashParts d o.hf parts = .ok (hf, x) := by
  unfold run hash
  rcases hashParts d o.hf parts with e | ⟨hf, x⟩
  · exact Or.inl ⟨e, rfl, rfl⟩
  · exact Or.inr ⟨hf, x, rfl, rfl⟩

theorem hash_ok {parts : List Bytes} {o : Model.PSS.Obj σ S} {hf : S} {x : Bytes} (h : hashParts d o.hf parts = .ok (hf, x)) (b : Bytes) :
    (hash d parts).run o b = ({ o with hf := hf }, b, .ok x) := by
  unfold run hash
  rw [h]

theorem mask_ok {out seed : Bytes} {o : Model.PSS.Obj σ S} {hf : S} {x : Bytes} (h : mgf1Xor d o.hf out seed = .ok (hf, x)) (b : Bytes) :
    (mask d out seed).run o b = ({ o with hf := hf }, b, .ok x) := by
  unfold run mask
  rw [h]

theorem mask_run (d : Digest S) (out seed : Bytes) (o : Model.PSS.Obj σ S) (b : Bytes) :
    (∃ e, (mask d out seed).run o b = (o, b, .error e) ∧ mgf1Xor d o.hf out seed = .error e) ∨
    ∃ hf x, (mask d out seed).run o b = ({ o with hf := hf }, b, .ok x) ∧ mgf1Xor d o.hf out seed = .ok (hf, x) := by
  unfold run mask
  rcases mgf1Xor d o.hf out seed with e | ⟨hf, x⟩
  · exact Or.inl ⟨e, rfl, rfl⟩
  · exact Or.inr ⟨hf, x, rfl, rfl⟩

theorem copyInto_mid {x y z w : Bytes} {i j : Nat} (hi : i = x.length) (hj : j = x.length + y.length) (hw : w.length = y.length) (o : Model.PSS.Obj σ S) :
    (copyInto i j w).run o (x ++ y ++ z) = (o, x ++ w ++ z, .ok ()) := by
  subst hi hj
  unfold run copyInto
  rw [if_pos (by simp only [List.length_append]; omega)]
  congr 2
  rw [List.append_assoc x y z, List.take_left' rfl, ← List.append_assoc x y z, List.drop_left' (by simp)]

theorem put_mid {x z : Bytes} {y w : Byte} {i : Nat} (hi : i = x.length) (o : Model.PSS.Obj σ S) :
    (put i w).run o (x ++ [y] ++ z) = (o, x ++ [w] ++ z, .ok ()) := by
  subst hi
  unfold run put
  rw [if_pos (by simp only [List.length_append, List.length_cons, List.length_nil]; omega)]
  congr 2
  simp

/-- `emsa_pss_encode` leaves the standard encoding in the buffer, whatever it held. -/
theorem encode_run (L : LawfulDigest d H bs size Abs Chk) (hs : 0 < size) (debug : Bool) (o : Model.PSS.Obj σ S) (hh : ∃ x, Abs o.hf x ∨ Chk o.hf x) (m : Bytes)
    {emBits : Nat} (h1 : 1 ≤ emBits) (salt : Bytes) (hm : m.length < 2 ^ 64) (hl : size + salt.length + 2 ≤ (emBits + 7) / 8)
    (hb : 8 + size + salt.length < 2 ^ 64) (b : Bytes) :
    ∃ hf', (encode debug d m emBits salt).run o b = ({ o with hf := hf' }, pss H size emBits salt m, .ok ()) ∧
      Model.PSS.encode debug d o.hf m emBits salt = .ok (hf', pss H size emBits salt m) ∧ ∃ x, Abs hf' x ∨ Chk hf' x := by
  obtain ⟨x, hx⟩ := hh
  obtain ⟨e0, e1, e2, e3⟩ := Model.PSS.emLen_spec h1
  obtain ⟨hf1, a1, c1⟩ := hashParts_ok L hx [m] (by simpa using hm)
  have ef : [m].flatten = m := by simp
  rw [ef] at a1 c1
  obtain ⟨hf2, a2, c2⟩ := hashParts_ok L (Or.inr c1) [List.replicate 8 0x00#8, H m, salt]
    (by simp only [List.flatten_cons, List.flatten_nil, List.length_append, List.length_replicate, L.length, List.length_nil]; omega)
  have ef2 : [List.replicate 8 0x00#8, H m, salt].flatten = List.replicate 8 0x00#8 ++ H m ++ salt := by
    simp only [List.flatten_cons, List.flatten_nil, List.append_nil, List.append_assoc]
  rw [ef2] at a2 c2
  have hbl : (H (List.replicate 8 0x00#8 ++ H m ++ salt)).length = size := L.length _
  have n2 : ¬ size ≠ (H m).length := by rw [L.length]; simp
  unfold pss Model.PSS.encode
  generalize hbuf : H (List.replicate 8 0x00#8 ++ H m ++ salt) = buf at *
  obtain ⟨n, hn⟩ : ∃ n, (emBits + 7) / 8 = n + 1 + salt.length + size + 1 := ⟨(emBits + 7) / 8 - salt.length - size - 2, by omega⟩
  obtain ⟨hf3, a3, c3⟩ := mgf1Xor_eq L hs (hf := hf2) ⟨_, Or.inr c2⟩ (List.replicate n 0x00#8 ++ [0x01#8] ++ salt) buf (by omega)
  have dl : (List.replicate n 0x00#8 ++ [0x01#8] ++ salt).length = n + 1 + salt.length := by
    simp only [List.length_append, List.length_replicate, List.length_cons, List.length_nil]
  have ml := length_mgf1 L.length hs buf (n + 1 + salt.length)
  have sl : ((emBits + 7) / 8) <<< 3 = 8 * ((emBits + 7) / 8) := by rw [Nat.shiftLeft_eq]; omega
  rw [dl] at a3
  have i1 : n + 1 + salt.length + size + 1 - size - 1 = n + 1 + salt.length := by omega
  have i2 : n + 1 + salt.length + size + 1 - salt.length - size - 2 = n := by omega
  have i3 : n + 1 + salt.length + size + 1 - 1 = n + 1 + salt.length + size := by omega
  have i4 : n + 1 + salt.length - salt.length = n + 1 := by omega
  have n1 : ¬ n + 1 + salt.length + size + 1 < size + salt.length + 2 := by omega
  have hxl : (xorBytes (List.replicate n 0x00#8 ++ [0x01#8] ++ salt) (mgf1 H size buf (n + 1 + salt.length))).length = n + 1 + salt.length := by
    rw [length_xorBytes, ml, dl, Nat.min_self]
  rw [hLen_eq L hx, e0]
  rw [hn] at e1 e2 e3 sl ⊢
  dsimp only
  rw [sl, i1, i2, if_neg n1, a1]
  simp only [ok_bind, if_neg n2, a2, a3, Model.PSS.usub_ok e2, Model.PSS.shr8_ok e3]
  have hne : xorBytes (List.replicate n 0x00#8 ++ [0x01#8] ++ salt) (mgf1 H size buf (n + 1 + salt.length)) ≠ [] := by
    intro h; rw [h] at hxl; simp only [List.length_nil] at hxl; omega
  refine ⟨hf3, ?_, by rw [Model.PSS.andHead_eq e3 hne]; rfl, c3⟩
  obtain ⟨y, ys, hy⟩ : ∃ y ys, xorBytes (List.replicate n 0x00#8 ++ [0x01#8] ++ salt) (mgf1 H size buf (n + 1 + salt.length)) = y :: ys := by
    cases hc : xorBytes (List.replicate n 0x00#8 ++ [0x01#8] ++ salt) (mgf1 H size buf (n + 1 + salt.length)) with
    | nil => exact absurd hc hne
    | cons y ys => exact ⟨y, ys, rfl⟩
  rw [hy] at hxl a3 ⊢
  unfold encode
  simp only [bind_run, self_run, hLen_eq L hx, e0, hn, if_neg n1, clear_run, resize_run, List.take_nil, List.length_nil, Nat.sub_zero, List.nil_append]
  rw [hash_ok a1]
  simp only [if_neg n2, bind_run]
  rw [hash_ok (o := { o with hf := hf1 }) a2]
  simp only [i1, i2, i3, i4]
  have z1 : List.replicate (n + 1 + salt.length + size + 1) 0#8 =
      List.replicate (n + 1 + salt.length) 0#8 ++ List.replicate size 0#8 ++ [0#8] := by
    rw [show [0#8] = List.replicate 1 0#8 by rfl, ← List.replicate_add, ← List.replicate_add]
  have z2 : List.replicate (n + 1 + salt.length) 0#8 ++ buf ++ [0#8] =
      List.replicate n 0#8 ++ [0#8] ++ (List.replicate salt.length 0#8 ++ (buf ++ [0#8])) := by
    rw [List.replicate_add, List.replicate_add]
    simp only [List.append_assoc]
    rfl
  have z3 : List.replicate n 0#8 ++ [0x01#8] ++ (List.replicate salt.length 0#8 ++ (buf ++ [0#8])) =
      (List.replicate n 0#8 ++ [0x01#8]) ++ List.replicate salt.length 0#8 ++ (buf ++ [0#8]) := by
    simp only [List.append_assoc]
  rw [z1, copyInto_mid (by simp) (by simp) (by simp [hbl])]
  dsimp only
  rw [z2, put_mid (by simp)]
  dsimp only
  rw [z3, copyInto_mid (by simp) (by simp) (by simp)]
  simp only [buffer_run]
  rw [List.take_left' dl, mask_ok (o := { o with hf := hf2 }) a3]
  dsimp only
  have z4 : (List.replicate n 0x00#8 ++ [0x01#8] ++ salt) ++ (buf ++ [0#8]) = [] ++ (List.replicate n 0x00#8 ++ [0x01#8] ++ salt) ++ (buf ++ [0#8]) := by
    rw [List.nil_append]
  rw [z4, copyInto_mid (x := []) (by simp) (by rw [dl]; simp) (by rw [hxl, dl])]
  simp only [lift_run, sl, Model.PSS.usub_ok e2, Model.PSS.shr8_ok e3, List.nil_append, List.cons_append]
  have z5 : index (y :: (ys ++ (buf ++ [0#8]))) 0 = .ok y := rfl
  rw [z5]
  dsimp only
  have z6 : y :: (ys ++ (buf ++ [0#8])) = [] ++ [y] ++ (ys ++ (buf ++ [0#8])) := rfl
  rw [z6, put_mid (x := []) (by simp)]
  dsimp only
  rw [Model.PSS.clearTop_cons e3]
  have z7 : ∀ w : Byte, [] ++ [w] ++ (ys ++ (buf ++ [0#8])) = (w :: ys ++ buf) ++ [0#8] ++ [] := by intro w; simp
  rw [z7, put_mid (by simp only [List.length_cons, List.length_append, hbl] at hxl ⊢; omega)]
  simp

/-- `sign`: after the encoding the buffer holds it, until the signature takes its place. -/
theorem sign_run (L : LawfulDigest d H bs size Abs Chk) (hs : 0 < size) (debug : Bool) (g : Rng σ) (fuel : Nat) (o : Model.PSS.Obj σ S)
    (hh : ∃ x, Abs o.hf x ∨ Chk o.hf x) (m : Bytes) (hm : m.length < 2 ^ 64)
    (hl : size + o.slen + 2 ≤ (bitsLen o.kp.publicKey.n - 1 + 7) / 8) (hb : 8 + size + o.slen < 2 ^ 64) (b : Bytes) :
    ∃ salt, salt.length = o.slen ∧ salt = (drawWords g ((o.slen + 3) >>> 2) o.rd).1.take o.slen ∧
      ((∃ rd hf e, (sign debug g fuel d m).run o b = ({ o with rd := rd, hf := hf }, pss H size (bitsLen o.kp.publicKey.n - 1) salt m, .error e) ∧
          Model.PSS.sign debug g fuel d o m = .error e ∧
          ((o.kp.privateKey = none ∧ e = .err .invalidPrivateKey) ∨ ∃ sk, o.kp.privateKey = some sk ∧
            Model.PKCS1.rawSign g fuel sk o.blinding (drawWords g ((o.slen + 3) >>> 2) o.rd).2
              (beNat (pss H size (bitsLen o.kp.publicKey.n - 1) salt m)) = .error e)) ∨
        ∃ rd hf c, (sign debug g fuel d m).run o b = ({ o with rd := rd, hf := hf }, c, .ok ()) ∧
          Model.PSS.sign debug g fuel d o m = .ok ({ o with rd := rd, hf := hf }, c)) := by
  have hsl : ((drawWords g ((o.slen + 3) >>> 2) o.rd).1.take o.slen).length = o.slen := by
    rw [List.length_take, Model.OAEP.length_drawWords, Nat.shiftRight_eq_div_pow]; omega
  refine ⟨_, hsl, rfl, ?_⟩
  unfold sign Model.PSS.sign
  simp only [bind_run, self_run, change_run]
  generalize drawWords g ((o.slen + 3) >>> 2) o.rd = wr at hsl ⊢
  obtain ⟨words, rd⟩ := wr
  dsimp only at hsl ⊢
  generalize words.take o.slen = salt at hsl
  obtain ⟨hf, e1, e2, -⟩ := encode_run L hs debug { o with rd := rd } hh m (emBits := bitsLen o.kp.publicKey.n - 1) (by omega) salt hm (by rw [hsl]; exact hl)
    (by rw [hsl]; exact hb) b
  dsimp only at e2
  unfold signWithSalt Model.PSS.signWithSalt
  simp only [bind_run, self_run, e1, e2, buffer_run, ok_bind]
  cases hp : o.kp.privateKey with
  | none => exact Or.inl ⟨rd, hf, _, rfl, rfl, Or.inl ⟨rfl, rfl⟩⟩
  | some sk =>
    simp only [bind_run]
    rcases checkStep_run g fuel sk (beNat (pss H size (bitsLen o.kp.publicKey.n - 1) salt m)) { o with rd := rd, hf := hf }
      (pss H size (bitsLen o.kp.publicKey.n - 1) salt m) with ⟨rd', e, h4, h5⟩ | ⟨rd', c, h4, h5⟩
    · dsimp only at h5
      rw [h4, h5]
      exact Or.inl ⟨rd', hf, e, rfl, rfl, Or.inr ⟨sk, rfl, h5⟩⟩
    · dsimp only at h5
      rw [h4, h5]
      refine Or.inr ⟨rd', hf, padTo ((bitsLen o.kp.publicKey.n + 7) >>> 3) (natBytes c), ?_, rfl⟩
      simp only [clear_run, resize_run, extend_run, List.take_nil, List.length_nil, Nat.sub_zero, List.nil_append, padTo]

/-- The check of the encoded message. -/
theorem verifyEM_run (debug : Bool) (d : Digest S) (em m : Bytes) (emBits : Nat) (o : Model.PSS.Obj σ S) (b : Bytes) :
    (∃ hf e, (verifyEM debug d em m emBits).run o b = ({ o with hf := hf }, b, .error e) ∧ Model.PSS.verifyEM debug d o.hf o.slen em m emBits = .error e) ∨
    ∃ hf, (verifyEM debug d em m emBits).run o b = ({ o with hf := hf }, b, .ok ()) ∧ Model.PSS.verifyEM debug d o.hf o.slen em m emBits = .ok hf := by
  unfold verifyEM Model.PSS.verifyEM
  simp only [bind_run, self_run]
  rcases hash_run d [m] o b with ⟨e, h1, h2⟩ | ⟨hf, mh, h1, h2⟩
  · rw [h1, h2]; exact Or.inl ⟨o.hf, e, rfl, rfl⟩
  rw [h1, h2]
  simp only [ok_bind]
  by_cases h3 : hLen d o.hf ≠ mh.length
  · rw [if_pos h3, if_pos h3]; exact Or.inl ⟨hf, _, rfl, rfl⟩
  rw [if_neg h3, if_neg h3]
  by_cases h4 : (emBits + 7) >>> 3 ≠ em.length ∨ (emBits + 7) >>> 3 < hLen d o.hf + o.slen + 2
  · rw [if_pos h4, if_pos h4]; exact Or.inl ⟨hf, _, rfl, rfl⟩
  rw [if_neg h4, if_neg h4]
  generalize (emBits + 7) >>> 3 = emLen
  simp only [bind_run, lift_run]
  rcases index em (emLen - 1) with e | last
  · exact Or.inl ⟨hf, e, rfl, rfl⟩
  simp only [ok_bind]
  by_cases h5 : last ≠ 0xbc#8
  · rw [if_pos h5, if_pos h5]; exact Or.inl ⟨hf, _, rfl, rfl⟩
  rw [if_neg h5, if_neg h5]
  simp only [bind_run, lift_run]
  rcases index em 0 with e | e0
  · exact Or.inl ⟨hf, e, rfl, rfl⟩
  simp only [ok_bind]
  rcases Model.PSS.usub debug (emLen <<< 3) emBits with e | z
  · exact Or.inl ⟨hf, e, rfl, rfl⟩
  simp only [ok_bind]
  rcases Model.PSS.usub debug 8 z with e | sh
  · exact Or.inl ⟨hf, e, rfl, rfl⟩
  simp only [ok_bind]
  rcases Model.PSS.shl8 debug 0xff#8 sh with e | hi
  · exact Or.inl ⟨hf, e, rfl, rfl⟩
  simp only [ok_bind]
  by_cases h6 : e0 &&& hi ≠ 0#8
  · rw [if_pos h6, if_pos h6]; exact Or.inl ⟨hf, _, rfl, rfl⟩
  rw [if_neg h6, if_neg h6]
  simp only [bind_run, lift_run]
  rcases slice em 0 (emLen - hLen d o.hf - 1) with e | db
  · exact Or.inl ⟨hf, e, rfl, rfl⟩
  simp only [ok_bind]
  rcases slice em (emLen - hLen d o.hf - 1) (emLen - 1) with e | hh
  · exact Or.inl ⟨hf, e, rfl, rfl⟩
  simp only [ok_bind]
  rcases mask_run d db hh { o with hf := hf } b with ⟨e, h7, h8⟩ | ⟨hf2, db2, h7, h8⟩
  · dsimp only at h8; rw [h7, h8]; exact Or.inl ⟨hf, e, rfl, rfl⟩
  dsimp only at h8
  rw [h7, h8]
  simp only [ok_bind]
  rcases Model.PSS.usub debug (emLen >>> 3) emBits with e | t
  · exact Or.inl ⟨hf2, e, rfl, rfl⟩
  simp only [ok_bind]
  rcases Model.PSS.shr8 debug 0xff#8 t with e | mk
  · exact Or.inl ⟨hf2, e, rfl, rfl⟩
  simp only [ok_bind]
  rcases Model.PSS.andHead mk db2 with e | db3
  · exact Or.inl ⟨hf2, e, rfl, rfl⟩
  simp only [ok_bind]
  by_cases h9 : ((db3.take (emLen - hLen d o.hf - o.slen - 2)).any (· ≠ 0x00#8)) = true
  · rw [if_pos h9, if_pos h9]; exact Or.inl ⟨hf2, _, rfl, rfl⟩
  rw [if_neg h9, if_neg h9]
  simp only [bind_run, lift_run]
  rcases index db3 (emLen - hLen d o.hf - o.slen - 2) with e | sep
  · exact Or.inl ⟨hf2, e, rfl, rfl⟩
  simp only [ok_bind]
  by_cases h10 : sep ≠ 0x01#8
  · rw [if_pos h10, if_pos h10]; exact Or.inl ⟨hf2, _, rfl, rfl⟩
  rw [if_neg h10, if_neg h10]
  simp only [bind_run, lift_run]
  rcases slice db3 (db3.length - o.slen) db3.length with e | salt
  · exact Or.inl ⟨hf2, e, rfl, rfl⟩
  simp only [ok_bind]
  rcases hash_run d [List.replicate 8 0x00#8, mh, salt] { o with hf := hf2 } b with ⟨e, h11, h12⟩ | ⟨hf3, x, h11, h12⟩
  · dsimp only at h12; rw [h11, h12]; exact Or.inl ⟨hf2, e, rfl, rfl⟩
  dsimp only at h12
  rw [h11, h12]
  simp only [ok_bind]
  by_cases h13 : x ≠ hh
  · rw [if_pos h13, if_pos h13]; exact Or.inl ⟨hf3, _, rfl, rfl⟩
  · rw [if_neg h13, if_neg h13]; exact Or.inr ⟨hf3, rfl, rfl⟩

/-- `verify` only changes the hash object. -/
theorem verify_run (debug : Bool) (d : Digest S) (sig m : Bytes) (o : Model.PSS.Obj σ S) (b : Bytes) :
    (∃ hf e, (verify debug d sig m).run o b = ({ o with hf := hf }, b, .error e) ∧ Model.PSS.verify debug d o sig m = .error e) ∨
    ∃ hf, (verify debug d sig m).run o b = ({ o with hf := hf }, b, .ok ()) ∧ Model.PSS.verify debug d o sig m = .ok { o with hf := hf } := by
  unfold verify Model.PSS.verify
  simp only [bind_run, self_run]
  by_cases h1 : sig.length ≠ (bitsLen o.kp.publicKey.n + 7) >>> 3
  · rw [if_pos h1, if_pos h1]; exact Or.inl ⟨o.hf, _, rfl, rfl⟩
  rw [if_neg h1, if_neg h1]
  by_cases h2 : (bitsLen o.kp.publicKey.n - 1 + 7) >>> 3 < (bitsLen (o.kp.publicKey.encrypt (beNat sig)) + 7) >>> 3
  · rw [if_pos h2, if_pos h2]; exact Or.inl ⟨o.hf, _, rfl, rfl⟩
  rw [if_neg h2, if_neg h2]
  rcases verifyEM_run debug d (fitTo ((bitsLen o.kp.publicKey.n - 1 + 7) >>> 3) (natBytes (o.kp.publicKey.encrypt (beNat sig)))) m
    (bitsLen o.kp.publicKey.n - 1) o b with ⟨hf, e, h3, h4⟩ | ⟨hf, h3, h4⟩
  · rw [h3, h4]; exact Or.inl ⟨hf, e, rfl, rfl⟩
  · rw [h3, h4]; exact Or.inr ⟨hf, rfl, rfl⟩

end PSS
end Verif.Model.RSAObj
