import Verif.Proof.RSASame
import Verif.Props.PKCS1
import Verif.Props.OAEP
import Verif.Props.PSS

/-! Property C80: the caller's buffer, and the RSA objects after an error -/

namespace Verif.Props
open Verif.Model Verif.Model.RSA Verif.Model.RSAObj Verif.Spec.RSA
open Verif.Spec.PKCS1 (pss emsa digestInfo)

variable {σ S : Type} {d : Digest S} {H : Bytes → Bytes} {bs : Option Nat} {size : Nat} {Abs Chk : S → Bytes → Prop}

/-! ## The buffer -/

/-- C80: a PKCS #1 v1.5 decryption that succeeds replaces whatever the buffer held by the message; one that is refused leaves the buffer as it was, and
of the object only the random source can have changed. For every object, key (valid or not), ciphertext and buffer. -/
theorem C80_pkcs1_decrypt (g : Rng σ) (fuel : Nat) (o : PKCS1.Obj σ S) (c b : Bytes) :
    (∀ o' m, (RSAObj.PKCS1.decrypt g fuel c).run o b = (o', m, .ok ()) ↔ PKCS1.decrypt g fuel o c = .ok (o', m)) ∧
    (∀ o' b' e, (RSAObj.PKCS1.decrypt g fuel c).run o b = (o', b', .error e) →
      PKCS1.decrypt g fuel o c = .error e ∧ b' = b ∧ o'.kp = o.kp ∧ o'.hf = o.hf ∧ o'.blinding = o.blinding ∧ o'.ty = o.ty) := by
  rcases RSAObj.PKCS1.decrypt_run g fuel c o b with ⟨rd, e, h1, h2⟩ | ⟨rd, m, h1, h2⟩
  · rw [h1, h2]
    refine ⟨fun o' m => ⟨fun h => (by cases h), fun h => (by cases h)⟩, fun o' b' e' h => ?_⟩
    cases h
    exact ⟨rfl, rfl, rfl, rfl, rfl, rfl⟩
  · rw [h1, h2]
    refine ⟨fun o' m => ⟨fun h => (by cases h; rfl), fun h => (by cases h; rfl)⟩, fun o' b' e' h => ?_⟩
    cases h

/-- C80: the same for OAEP. -/
theorem C80_oaep_decrypt (g : Rng σ) (fuel : Nat) (d : Digest S) (o : OAEP.Obj σ S) (c b : Bytes) :
    (∀ o' m, (RSAObj.OAEP.decrypt g fuel d c).run o b = (o', m, .ok ()) ↔ OAEP.decrypt g fuel d o c = .ok (o', m)) ∧
    (∀ o' b' e, (RSAObj.OAEP.decrypt g fuel d c).run o b = (o', b', .error e) →
      OAEP.decrypt g fuel d o c = .error e ∧ b' = b ∧ o'.kp = o.kp ∧ o'.label = o.label ∧ o'.blinding = o.blinding) := by
  rcases RSAObj.OAEP.decrypt_run g fuel d c o b with ⟨rd, hf, e, h1, h2⟩ | ⟨rd, hf, m, h1, h2⟩
  · rw [h1, h2]
    refine ⟨fun o' m => ⟨fun h => (by cases h), fun h => (by cases h)⟩, fun o' b' e' h => ?_⟩
    cases h
    exact ⟨rfl, rfl, rfl, rfl, rfl⟩
  · rw [h1, h2]
    refine ⟨fun o' m => ⟨fun h => (by cases h; rfl), fun h => (by cases h; rfl)⟩, fun o' b' e' h => ?_⟩
    cases h

/-- C80: a PKCS #1 v1.5 encryption that succeeds replaces whatever the buffer held by the ciphertext; one that returns an error leaves an empty buffer and the
object as it was. (`Fault.err` is an `Err`; the other faults are panics and loops without end.) -/
theorem C80_pkcs1_encrypt (g : Rng σ) (fuel : Nat) (o : PKCS1.Obj σ S) (msg b : Bytes) :
    (∀ o' c, (RSAObj.PKCS1.encrypt g fuel msg).run o b = (o', c, .ok ()) ↔ PKCS1.encrypt g fuel o msg = .ok (o', c)) ∧
    (∀ o' b' e, (RSAObj.PKCS1.encrypt g fuel msg).run o b = (o', b', .error (.err e)) →
      PKCS1.encrypt g fuel o msg = .error (.err e) ∧ b' = [] ∧ o' = o) := by
  rcases RSAObj.PKCS1.encrypt_run g fuel msg o b with ⟨e, h1, h2⟩ | ⟨rd, b', h1, h2⟩ | ⟨rd, m, h1, h2⟩
  · rw [h1, h2]
    refine ⟨fun o' m => ⟨fun h => (by cases h), fun h => (by cases h)⟩, fun o' b' e' h => ?_⟩
    cases h
    exact ⟨rfl, rfl, rfl⟩
  · rw [h1, h2]
    exact ⟨fun o' m => ⟨fun h => (by cases h), fun h => (by cases h)⟩, fun o' b' e' h => (by cases h)⟩
  · rw [h1, h2]
    exact ⟨fun o' m => ⟨fun h => (by cases h; rfl), fun h => (by cases h; rfl)⟩, fun o' b' e' h => (by cases h)⟩

/-- C80: an OAEP encryption that succeeds replaces whatever the buffer held by the ciphertext; one that fails leaves the buffer as it was. -/
theorem C80_oaep_encrypt (g : Rng σ) (d : Digest S) (o : OAEP.Obj σ S) (msg b : Bytes) :
    (∀ o' c, (RSAObj.OAEP.encrypt g d msg).run o b = (o', c, .ok ()) ↔ OAEP.encrypt g d o msg = .ok (o', c)) ∧
    (∀ o' b' e, (RSAObj.OAEP.encrypt g d msg).run o b = (o', b', .error e) →
      OAEP.encrypt g d o msg = .error e ∧ b' = b ∧ o'.kp = o.kp ∧ o'.label = o.label ∧ o'.blinding = o.blinding) := by
  rcases RSAObj.OAEP.encrypt_run g d msg o b with ⟨rd, hf, e, h1, h2⟩ | ⟨rd, hf, m, h1, h2⟩
  · rw [h1, h2]
    refine ⟨fun o' m => ⟨fun h => (by cases h), fun h => (by cases h)⟩, fun o' b' e' h => ?_⟩
    cases h
    exact ⟨rfl, rfl, rfl, rfl, rfl⟩
  · rw [h1, h2]
    refine ⟨fun o' m => ⟨fun h => (by cases h; rfl), fun h => (by cases h; rfl)⟩, fun o' b' e' h => ?_⟩
    cases h

/-- C80: a PKCS #1 v1.5 signature that succeeds replaces whatever the buffer held; after an error the buffer is as it was or holds the EMSA-PKCS1-v1_5
encoding of the message, which anybody can compute. In particular a signature that fails the check after the private-key operation, as with a
damaged key, is not released. For every key, valid or not. -/
theorem C80_pkcs1_sign (L : LawfulDigest d H bs size Abs Chk) (g : Rng σ) (fuel : Nat) (o : PKCS1.Obj σ S) (hh : GoodState Abs Chk o.hf)
    (alg : Bytes) (ha : algOf o.ty = some (alg, size)) (msg b : Bytes) (hm : msg.length < 2 ^ 64) :
    (∀ o' s, (RSAObj.PKCS1.sign g fuel d msg).run o b = (o', s, .ok ()) ↔ PKCS1.sign g fuel d o msg = .ok (o', s)) ∧
    (∀ o' b' e, (RSAObj.PKCS1.sign g fuel d msg).run o b = (o', b', .error e) →
      PKCS1.sign g fuel d o msg = .error e ∧ (b' = b ∨ b' = emsa o.kp.publicKey.modulusLen (digestInfo alg (H msg)))) := by
  obtain ⟨hf0, eh, -⟩ := hash_same L hh (parts := [msg]) (by simpa using hm)
  rw [show [msg].flatten = msg by simp] at eh
  rcases RSAObj.PKCS1.sign_run g fuel d msg o b with ⟨e, h1, h2⟩ | ⟨o1, b1, e, h1, h2, h3⟩ | ⟨o1, m, h1, h2⟩
  · rw [h1, h2]
    refine ⟨fun o' m => ⟨fun h => (by cases h), fun h => (by cases h)⟩, fun o' b' e' h => ?_⟩
    cases h
    exact ⟨rfl, Or.inl rfl⟩
  · rw [h1, h2]
    refine ⟨fun o' m => ⟨fun h => (by cases h), fun h => (by cases h)⟩, fun o' b' e' h => ?_⟩
    simp only [Prod.mk.injEq, Except.error.injEq] at h
    obtain ⟨-, rfl, rfl⟩ := h
    refine ⟨rfl, Or.inr ?_⟩
    rcases h3 with ⟨e2, h3⟩ | ⟨sk, pre, hf, dig, hp, hpre, hdig, hlen, hb, -⟩
    · rw [eh] at h3; cases h3
    · rw [eh] at hdig
      cases hdig
      obtain ⟨pre', hp', hd'⟩ := C46_prefix _ _ _ ha
      rw [hpre] at hp'
      cases hp'
      obtain ⟨x, hx⟩ := hh
      have hpk : o.kp.publicKey = sk.pk := by
        cases hkp : o.kp with
        | pub k => rw [hkp] at hp; cases hp
        | pri k => rw [hkp] at hp; cases hp; rfl
      rw [hb, hpk, hd' _ (L.length _), hLen_eq L hx]
      simp [emsa, L.length]
  · rw [h1, h2]
    exact ⟨fun o' m => ⟨fun h => (by cases h; rfl), fun h => (by cases h; rfl)⟩, fun o' b' e' h => (by cases h)⟩

/-- C80: a PSS signature that succeeds replaces whatever the buffer held; after an error the buffer holds the EMSA-PSS encoding of the message with the
salt drawn, which is made without the private key. -/
theorem C80_pss_sign (L : LawfulDigest d H bs size Abs Chk) (hs : 0 < size) (debug : Bool) (g : Rng σ) (fuel : Nat) (o : PSS.Obj σ S)
    (hh : GoodState Abs Chk o.hf) (msg b : Bytes) (hm : msg.length < 2 ^ 64) (h64 : 8 + size + o.slen < 2 ^ 64)
    (hl : size + o.slen + 2 ≤ (bitsLen o.kp.publicKey.n - 1 + 7) / 8) :
    (∀ o' s, (RSAObj.PSS.sign debug g fuel d msg).run o b = (o', s, .ok ()) ↔ PSS.sign debug g fuel d o msg = .ok (o', s)) ∧
    (∀ o' b' e, (RSAObj.PSS.sign debug g fuel d msg).run o b = (o', b', .error e) →
      PSS.sign debug g fuel d o msg = .error e ∧ o'.kp = o.kp ∧ o'.slen = o.slen ∧ o'.blinding = o.blinding ∧
      b' = pss H size (bitsLen o.kp.publicKey.n - 1) ((drawWords g ((o.slen + 3) >>> 2) o.rd).1.take o.slen) msg) := by
  obtain ⟨salt, -, hsalt, h | h⟩ := RSAObj.PSS.sign_run L hs debug g fuel o hh msg hm hl h64 b
  · obtain ⟨rd, hf, e, h1, h2, -⟩ := h
    rw [h1, h2]
    refine ⟨fun o' m => ⟨fun h => (by cases h), fun h => (by cases h)⟩, fun o' b' e' h => ?_⟩
    simp only [Prod.mk.injEq, Except.error.injEq] at h
    obtain ⟨rfl, rfl, rfl⟩ := h
    exact ⟨rfl, rfl, rfl, rfl, by rw [hsalt]⟩
  · obtain ⟨rd, hf, c, h1, h2⟩ := h
    rw [h1, h2]
    exact ⟨fun o' m => ⟨fun h => (by cases h; rfl), fun h => (by cases h; rfl)⟩, fun o' b' e' h => (by cases h)⟩

/-- C80: an object with a public key only refuses to sign with PSS, but has already overwritten the buffer: it holds the encoding, not what was there. -/
theorem C80_pss_public (L : LawfulDigest d H bs size Abs Chk) (hs : 0 < size) (debug : Bool) (g : Rng σ) (fuel : Nat) (o : PSS.Obj σ S) (pk : PublicKey)
    (ho : o.kp = .pub pk) (hh : GoodState Abs Chk o.hf) (msg b : Bytes) (hm : msg.length < 2 ^ 64) (h64 : 8 + size + o.slen < 2 ^ 64)
    (hl : size + o.slen + 2 ≤ (bitsLen pk.n - 1 + 7) / 8) :
    ∃ o', (RSAObj.PSS.sign debug g fuel d msg).run o b =
      (o', pss H size (bitsLen pk.n - 1) ((drawWords g ((o.slen + 3) >>> 2) o.rd).1.take o.slen) msg, .error (.err .invalidPrivateKey)) := by
  have hpk : o.kp.publicKey = pk := by rw [ho]; rfl
  have hn : o.kp.privateKey = none := by rw [ho]; rfl
  obtain ⟨salt, -, hsalt, h | h⟩ := RSAObj.PSS.sign_run L hs debug g fuel o hh msg hm (by rw [hpk]; exact hl) h64 b
  · obtain ⟨rd, hf, e, h1, -, ⟨-, rfl⟩ | ⟨sk, h3, -⟩⟩ := h
    · exact ⟨_, by rw [h1, hpk, hsalt]⟩
    · rw [hn] at h3; cases h3
  · obtain ⟨rd, hf, c, -, h2⟩ := h
    unfold Model.PSS.sign Model.PSS.signWithSalt at h2
    dsimp only at h2
    rw [hn] at h2
    rcases he : PSS.encode debug d o.hf msg (bitsLen o.kp.publicKey.n - 1) ((drawWords g ((o.slen + 3) >>> 2) o.rd).1.take o.slen) with e | x
    · rw [he] at h2; cases h2
    · rw [he] at h2; cases h2

/-! ## Histories -/

/-- A call on an object of type PKCS1; `fuel` bounds the draws from the random source. -/
inductive PKCS1Call where
  | encrypt (fuel : Nat) (msg : Bytes)
  | decrypt (fuel : Nat) (c : Bytes)
  | sign (fuel : Nat) (msg : Bytes)
  | verify (sig msg : Bytes)

/-- The method called. -/
def PKCS1Call.meth (g : Rng σ) (d : Digest S) : PKCS1Call → Meth (PKCS1.Obj σ S) Unit
  | .encrypt fuel msg => RSAObj.PKCS1.encrypt g fuel msg
  | .decrypt fuel c => RSAObj.PKCS1.decrypt g fuel c
  | .sign fuel msg => RSAObj.PKCS1.sign g fuel d msg
  | .verify sig msg => RSAObj.PKCS1.verify d sig msg

/-- Messages that are hashed have less than 2^64 bytes. -/
def PKCS1Call.Fits : PKCS1Call → Prop
  | .sign _ msg => msg.length < 2 ^ 64
  | .verify _ msg => msg.length < 2 ^ 64
  | _ => True

/-- A call on an object of type OAEP. -/
inductive OAEPCall where
  | encrypt (msg : Bytes)
  | decrypt (fuel : Nat) (c : Bytes)

/-- The method called. -/
def OAEPCall.meth (g : Rng σ) (d : Digest S) : OAEPCall → Meth (OAEP.Obj σ S) Unit
  | .encrypt msg => RSAObj.OAEP.encrypt g d msg
  | .decrypt fuel c => RSAObj.OAEP.decrypt g fuel d c

/-- A call on an object of type PSS. -/
inductive PSSCall where
  | sign (fuel : Nat) (msg : Bytes)
  | verify (sig msg : Bytes)

/-- The method called. -/
def PSSCall.meth (debug : Bool) (g : Rng σ) (d : Digest S) : PSSCall → Meth (PSS.Obj σ S) Unit
  | .sign fuel msg => RSAObj.PSS.sign debug g fuel d msg
  | .verify sig msg => RSAObj.PSS.verify debug d sig msg

/-- Messages have less than 2^64 bytes. -/
def PSSCall.Fits : PSSCall → Prop
  | .sign _ msg => msg.length < 2 ^ 64
  | .verify _ msg => msg.length < 2 ^ 64

/-- The object after a list of calls, each with its buffer; the results, errors among them, are ignored. -/
def after {C ω : Type} (meth : C → Meth ω Unit) : List (C × Bytes) → ω → ω
  | [], o => o
  | (c, b) :: calls, o => after meth calls ((meth c).run o b).1

theorem same_result {ω : Type} {R : ω → ω → Prop} {m : Meth ω Unit} (h : Same R Eq m m) {o1 o2 : ω} (hr : R o1 o2) (b : Bytes) :
    (m.run o1 b).2 = (m.run o2 b).2 := by
  obtain ⟨-, h2, h3⟩ := h o1 o2 b hr
  refine Prod.ext h2 ?_
  rcases h4 : (m.run o1 b).2.2 with e | x <;> rcases h5 : (m.run o2 b).2.2 with e' | y <;> rw [h4, h5] at h3
  · exact congrArg _ h3
  · exact h3.elim
  · exact h3.elim

theorem pkcs1_call_same (L : LawfulDigest d H bs size Abs Chk) (g : Rng σ) (o : PKCS1.Obj σ S) (c : PKCS1Call) (hc : c.Fits) :
    Same (RSAObj.PKCS1.Twin True Abs Chk o) Eq (c.meth g d) (c.meth g d) := by
  cases c with
  | encrypt fuel msg => exact RSAObj.PKCS1.encrypt_same g fuel msg trivial
  | decrypt fuel c => exact RSAObj.PKCS1.decrypt_same g fuel c (Or.inl trivial)
  | sign fuel msg => exact RSAObj.PKCS1.sign_same L g fuel msg hc (Or.inl trivial)
  | verify sig msg => exact RSAObj.PKCS1.verify_same L sig msg hc

theorem pkcs1_after (L : LawfulDigest d H bs size Abs Chk) (g : Rng σ) (o : PKCS1.Obj σ S) (calls : List (PKCS1Call × Bytes))
    (hc : ∀ x ∈ calls, x.1.Fits) (p : PKCS1.Obj σ S) (hp : RSAObj.PKCS1.Like Abs Chk o p) :
    RSAObj.PKCS1.Like Abs Chk o (after (PKCS1Call.meth g d) calls p) := by
  induction calls generalizing p with
  | nil => exact hp
  | cons x calls ih =>
    exact ih (fun y hy => hc y (List.mem_cons_of_mem _ hy)) _ (pkcs1_call_same L g o x.1 (hc x List.mem_cons_self) p p x.2 ⟨hp, hp, fun _ => rfl⟩).1.1

/-- C80: after every list of calls on a PKCS #1 v1.5 object, refused ones among them, key, hash type and blinding are unchanged, and every
further call returns the same, leaves the same in the buffer and leaves the random source in the same state as on an object built anew from that key
with the random source in its present state. -/
theorem C80_pkcs1_history (L : LawfulDigest d H bs size Abs Chk) (g : Rng σ) (o : PKCS1.Obj σ S) (hh : GoodState Abs Chk o.hf)
    (calls : List (PKCS1Call × Bytes)) (hc : ∀ x ∈ calls, x.1.Fits) (o' : PKCS1.Obj σ S) (ho' : o' = after (PKCS1Call.meth g d) calls o) :
    o'.kp = o.kp ∧ o'.blinding = o.blinding ∧ o'.ty = o.ty ∧ GoodState Abs Chk o'.hf ∧
    ∀ (fresh : S), GoodState Abs Chk fresh → ∀ (c : PKCS1Call), c.Fits → ∀ b : Bytes,
      ((c.meth g d).run o' b).2 = ((c.meth g d).run ⟨o.kp, o'.rd, fresh, o.blinding, o.ty⟩ b).2 ∧
      ((c.meth g d).run o' b).1.rd = ((c.meth g d).run ⟨o.kp, o'.rd, fresh, o.blinding, o.ty⟩ b).1.rd := by
  have h := pkcs1_after L g o calls hc o ⟨rfl, rfl, rfl, hh⟩
  rw [← ho'] at h
  refine ⟨h.kp, h.blinding, h.ty, h.good, fun fresh hf c hcf b => ?_⟩
  have hr : RSAObj.PKCS1.Twin True Abs Chk o o' ⟨o.kp, o'.rd, fresh, o.blinding, o.ty⟩ := ⟨h, ⟨rfl, rfl, rfl, hf⟩, fun _ => rfl⟩
  have hs := pkcs1_call_same L g o c hcf
  exact ⟨same_result hs hr b, (hs _ _ b hr).1.2.2 trivial⟩

/-- C80: after every such list of calls `verify` gives the answer it gave before; and so do `decrypt` and `sign`, without blinding for every key, with blinding
for valid keys if the source always is usable. -/
theorem C80_pkcs1_stable (L : LawfulDigest d H bs size Abs Chk) (g : Rng σ) (o : PKCS1.Obj σ S) (hh : GoodState Abs Chk o.hf)
    (calls : List (PKCS1Call × Bytes)) (hc : ∀ x ∈ calls, x.1.Fits) (o' : PKCS1.Obj σ S) (ho' : o' = after (PKCS1Call.meth g d) calls o) (b : Bytes) :
    (∀ sig msg : Bytes, msg.length < 2 ^ 64 → ((RSAObj.PKCS1.verify d sig msg).run o' b).2 = ((RSAObj.PKCS1.verify d sig msg).run o b).2) ∧
    ∀ fuel : Nat, (o.blinding = false ∨ ∀ sk, o.kp = .pri sk → ValidKey sk.pk.n sk.pk.e sk.d sk.primes ∧ Computed sk ∧ ∀ s, Usable g sk.pk.n fuel s) →
      (∀ c : Bytes, ((RSAObj.PKCS1.decrypt g fuel c).run o' b).2 = ((RSAObj.PKCS1.decrypt g fuel c).run o b).2) ∧
      ∀ msg : Bytes, msg.length < 2 ^ 64 → ((RSAObj.PKCS1.sign g fuel d msg).run o' b).2 = ((RSAObj.PKCS1.sign g fuel d msg).run o b).2 := by
  have h := pkcs1_after L g o calls hc o ⟨rfl, rfl, rfl, hh⟩
  rw [← ho'] at h
  have hr : RSAObj.PKCS1.Twin False Abs Chk o o' o := ⟨h, ⟨rfl, rfl, rfl, hh⟩, False.elim⟩
  refine ⟨fun sig msg hm => same_result (RSAObj.PKCS1.verify_same L sig msg hm) hr b, fun fuel hk => ?_⟩
  have hE : False ∨ o.blinding = false ∨ ∀ sk, o.kp.privateKey = some sk → RSAObj.Sound g fuel sk := by
    refine Or.inr (hk.imp_right fun hk sk hsk => ?_)
    have ho : o.kp = .pri sk := by
      cases hkp : o.kp with
      | pub k => rw [hkp] at hsk; cases hsk
      | pri k => rw [hkp] at hsk; cases hsk; rfl
    exact ⟨(hk sk ho).1, (hk sk ho).2.1, (hk sk ho).2.2⟩
  exact ⟨fun c => same_result (RSAObj.PKCS1.decrypt_same g fuel c hE) hr b, fun msg hm => same_result (RSAObj.PKCS1.sign_same L g fuel msg hm hE) hr b⟩

theorem oaep_call_same (L : LawfulDigest d H bs size Abs Chk) (hs : 0 < size) (g : Rng σ) (o : OAEP.Obj σ S) (hlab : o.label.length < 2 ^ 64)
    (hk : o.kp.publicKey.modulusLen + 4 < 2 ^ 64) (c : OAEPCall) : Same (RSAObj.OAEP.Twin True Abs Chk o) Eq (c.meth g d) (c.meth g d) := by
  cases c with
  | encrypt msg => exact RSAObj.OAEP.encrypt_same L hs g msg hlab hk trivial
  | decrypt fuel c => exact RSAObj.OAEP.decrypt_same L hs g fuel c hlab hk (Or.inl trivial)

theorem oaep_after (L : LawfulDigest d H bs size Abs Chk) (hs : 0 < size) (g : Rng σ) (o : OAEP.Obj σ S) (hlab : o.label.length < 2 ^ 64)
    (hk : o.kp.publicKey.modulusLen + 4 < 2 ^ 64) (calls : List (OAEPCall × Bytes)) (p : OAEP.Obj σ S) (hp : RSAObj.OAEP.Like Abs Chk o p) :
    RSAObj.OAEP.Like Abs Chk o (after (OAEPCall.meth g d) calls p) := by
  induction calls generalizing p with
  | nil => exact hp
  | cons x calls ih => exact ih _ (oaep_call_same L hs g o hlab hk x.1 p p x.2 ⟨hp, hp, fun _ => rfl⟩).1.1

/-- C80: after every list of calls on an OAEP object, refused ones among them, key, label and blinding are unchanged, and every further call
returns the same, leaves the same in the buffer and leaves the random source in the same state as on an object built anew. -/
theorem C80_oaep_history (L : LawfulDigest d H bs size Abs Chk) (hs : 0 < size) (g : Rng σ) (o : OAEP.Obj σ S) (hh : GoodState Abs Chk o.hf)
    (hlab : o.label.length < 2 ^ 64) (hk : o.kp.publicKey.modulusLen + 4 < 2 ^ 64)
    (calls : List (OAEPCall × Bytes)) (o' : OAEP.Obj σ S) (ho' : o' = after (OAEPCall.meth g d) calls o) :
    o'.kp = o.kp ∧ o'.blinding = o.blinding ∧ o'.label = o.label ∧ GoodState Abs Chk o'.hf ∧
    ∀ (fresh : S), GoodState Abs Chk fresh → ∀ (c : OAEPCall) (b : Bytes),
      ((c.meth g d).run o' b).2 = ((c.meth g d).run ⟨o.kp, fresh, o'.rd, o.label, o.blinding⟩ b).2 ∧
      ((c.meth g d).run o' b).1.rd = ((c.meth g d).run ⟨o.kp, fresh, o'.rd, o.label, o.blinding⟩ b).1.rd := by
  have h := oaep_after L hs g o hlab hk calls o ⟨rfl, rfl, rfl, hh⟩
  rw [← ho'] at h
  refine ⟨h.kp, h.blinding, h.label, h.good, fun fresh hf c b => ?_⟩
  have hr : RSAObj.OAEP.Twin True Abs Chk o o' ⟨o.kp, fresh, o'.rd, o.label, o.blinding⟩ := ⟨h, ⟨rfl, rfl, rfl, hf⟩, fun _ => rfl⟩
  have hsm := oaep_call_same L hs g o hlab hk c
  exact ⟨same_result hsm hr b, (hsm _ _ b hr).1.2.2 trivial⟩

/-- C80: after every such list of calls `decrypt` gives the answer it gave before, without blinding for every key, with blinding for valid keys if the source
always is usable. -/
theorem C80_oaep_stable (L : LawfulDigest d H bs size Abs Chk) (hs : 0 < size) (g : Rng σ) (o : OAEP.Obj σ S) (hh : GoodState Abs Chk o.hf)
    (hlab : o.label.length < 2 ^ 64) (hk : o.kp.publicKey.modulusLen + 4 < 2 ^ 64)
    (calls : List (OAEPCall × Bytes)) (o' : OAEP.Obj σ S) (ho' : o' = after (OAEPCall.meth g d) calls o) (fuel : Nat)
    (hv : o.blinding = false ∨ ∀ sk, o.kp = .pri sk → ValidKey sk.pk.n sk.pk.e sk.d sk.primes ∧ Computed sk ∧ ∀ s, Usable g sk.pk.n fuel s) (c b : Bytes) :
    ((RSAObj.OAEP.decrypt g fuel d c).run o' b).2 = ((RSAObj.OAEP.decrypt g fuel d c).run o b).2 := by
  have h := oaep_after L hs g o hlab hk calls o ⟨rfl, rfl, rfl, hh⟩
  rw [← ho'] at h
  have hr : RSAObj.OAEP.Twin False Abs Chk o o' o := ⟨h, ⟨rfl, rfl, rfl, hh⟩, False.elim⟩
  have hE : False ∨ o.blinding = false ∨ ∀ sk, o.kp.privateKey = some sk → RSAObj.Sound g fuel sk := by
    refine Or.inr (hv.imp_right fun hv sk hsk => ?_)
    have ho : o.kp = .pri sk := by
      cases hkp : o.kp with
      | pub k => rw [hkp] at hsk; cases hsk
      | pri k => rw [hkp] at hsk; cases hsk; rfl
    exact ⟨(hv sk ho).1, (hv sk ho).2.1, (hv sk ho).2.2⟩
  exact same_result (RSAObj.OAEP.decrypt_same L hs g fuel c hlab hk hE) hr b

theorem pss_call_same (L : LawfulDigest d H bs size Abs Chk) (hs : 0 < size) (debug : Bool) (g : Rng σ) (o : PSS.Obj σ S)
    (hk : o.kp.publicKey.modulusLen + 4 < 2 ^ 64) (h64 : 8 + size + o.slen < 2 ^ 64) (c : PSSCall) (hc : c.Fits) :
    Same (RSAObj.PSS.Twin True Abs Chk o) Eq (c.meth debug g d) (c.meth debug g d) := by
  cases c with
  | sign fuel msg => exact RSAObj.PSS.sign_same L hs debug g fuel msg hc h64 trivial
  | verify sig msg => exact RSAObj.PSS.verify_same L hs debug sig msg hc hk h64

theorem pss_after (L : LawfulDigest d H bs size Abs Chk) (hs : 0 < size) (debug : Bool) (g : Rng σ) (o : PSS.Obj σ S)
    (hk : o.kp.publicKey.modulusLen + 4 < 2 ^ 64) (h64 : 8 + size + o.slen < 2 ^ 64) (calls : List (PSSCall × Bytes)) (hc : ∀ x ∈ calls, x.1.Fits)
    (p : PSS.Obj σ S) (hp : RSAObj.PSS.Like Abs Chk o p) : RSAObj.PSS.Like Abs Chk o (after (PSSCall.meth debug g d) calls p) := by
  induction calls generalizing p with
  | nil => exact hp
  | cons x calls ih =>
    exact ih (fun y hy => hc y (List.mem_cons_of_mem _ hy)) _
      (pss_call_same L hs debug g o hk h64 x.1 (hc x List.mem_cons_self) p p x.2 ⟨hp, hp, fun _ => rfl⟩).1.1

/-- C80: after every list of calls on a PSS object, refused ones among them, key, salt length and blinding are unchanged; every further call
returns the same, leaves the same in the buffer and leaves the random source in the same state as on an object built anew; and `verify` gives the answer it gave
before. In both builds. -/
theorem C80_pss_history (L : LawfulDigest d H bs size Abs Chk) (hs : 0 < size) (debug : Bool) (g : Rng σ) (o : PSS.Obj σ S) (hh : GoodState Abs Chk o.hf)
    (hk : o.kp.publicKey.modulusLen + 4 < 2 ^ 64) (h64 : 8 + size + o.slen < 2 ^ 64)
    (calls : List (PSSCall × Bytes)) (hc : ∀ x ∈ calls, x.1.Fits) (o' : PSS.Obj σ S) (ho' : o' = after (PSSCall.meth debug g d) calls o) :
    o'.kp = o.kp ∧ o'.blinding = o.blinding ∧ o'.slen = o.slen ∧ GoodState Abs Chk o'.hf ∧
    (∀ (fresh : S), GoodState Abs Chk fresh → ∀ (c : PSSCall), c.Fits → ∀ b : Bytes,
      ((c.meth debug g d).run o' b).2 = ((c.meth debug g d).run ⟨o.kp, o.slen, fresh, o'.rd, o.blinding⟩ b).2 ∧
      ((c.meth debug g d).run o' b).1.rd = ((c.meth debug g d).run ⟨o.kp, o.slen, fresh, o'.rd, o.blinding⟩ b).1.rd) ∧
    ∀ sig msg b : Bytes, msg.length < 2 ^ 64 → ((RSAObj.PSS.verify debug d sig msg).run o' b).2 = ((RSAObj.PSS.verify debug d sig msg).run o b).2 := by
  have h := pss_after L hs debug g o hk h64 calls hc o ⟨rfl, rfl, rfl, hh⟩
  rw [← ho'] at h
  refine ⟨h.kp, h.blinding, h.slen, h.good, fun fresh hf c hcf b => ?_, fun sig msg b hm => ?_⟩
  · have hr : RSAObj.PSS.Twin True Abs Chk o o' ⟨o.kp, o.slen, fresh, o'.rd, o.blinding⟩ := ⟨h, ⟨rfl, rfl, rfl, hf⟩, fun _ => rfl⟩
    have hsm := pss_call_same L hs debug g o hk h64 c hcf
    exact ⟨same_result hsm hr b, (hsm _ _ b hr).1.2.2 trivial⟩
  · exact same_result (RSAObj.PSS.verify_same (E := False) L hs debug sig msg hm hk h64) ⟨h, ⟨rfl, rfl, rfl, hh⟩, False.elim⟩ b

/-- C80: `verify` of both schemes leaves the signature and everything but the hash object alone, and answers as in the models of C46 and C48. -/
theorem C80_verify (debug : Bool) (d : Digest S) (p : PKCS1.Obj σ S) (q : PSS.Obj σ S) (sig msg b : Bytes) :
    ((∃ hf, ((RSAObj.PKCS1.verify d sig msg).run p b).1 = { p with hf := hf }) ∧ ((RSAObj.PKCS1.verify d sig msg).run p b).2 =
      (b, (PKCS1.verify d p sig msg).map fun _ => ())) ∧
    (∃ hf, ((RSAObj.PSS.verify debug d sig msg).run q b).1 = { q with hf := hf }) ∧ ((RSAObj.PSS.verify debug d sig msg).run q b).2 =
      (b, (PSS.verify debug d q sig msg).map fun _ => ()) := by
  constructor
  · rcases RSAObj.PKCS1.verify_run d sig msg p b with ⟨hf, e, h1, h2⟩ | ⟨hf, h1, h2⟩
    · rw [h1, h2]; exact ⟨⟨hf, rfl⟩, rfl⟩
    · rw [h1, h2]; exact ⟨⟨hf, rfl⟩, rfl⟩
  · rcases RSAObj.PSS.verify_run debug d sig msg q b with ⟨hf, e, h1, h2⟩ | ⟨hf, h1, h2⟩
    · rw [h1, h2]; exact ⟨⟨hf, rfl⟩, rfl⟩
    · rw [h1, h2]; exact ⟨⟨hf, rfl⟩, rfl⟩

/-! ## The hypotheses can be met -/

/-- A refused decryption (wrong length) between two signatures with MD5 and a key of 45 bytes: the second signature is the first one. -/
example (sk : RSA.PrivateKey) (msg b : Bytes) (hm : msg.length < 2 ^ 64) :
    ((RSAObj.PKCS1.sign wordRng 0 MD5.digest msg).run
      (after (PKCS1Call.meth wordRng MD5.digest) [(.sign 0 msg, b), (.decrypt 0 [0x01#8], b)] (md5Signer sk)) b).2 =
    ((RSAObj.PKCS1.sign wordRng 0 MD5.digest msg).run (md5Signer sk) b).2 :=
  ((C80_pkcs1_stable MD5.lawful wordRng (md5Signer sk) (md5Signer_good sk) _
    (by intro x hx; simp only [List.mem_cons, List.not_mem_nil, or_false] at hx; rcases hx with rfl | rfl; exacts [hm, trivial]) _ rfl b).2 0 (Or.inl rfl)).2 msg hm

/-- The same with blinding, and with an encryption in between that draws from the source. -/
example (msg b : Bytes) (hm : msg.length < 2 ^ 64) :
    ((RSAObj.PKCS1.sign wordRng 1 MD5.digest msg).run (after (PKCS1Call.meth wordRng MD5.digest)
      [(.sign 1 msg, b), (.decrypt 1 [0x01#8], b), (.encrypt 9 [0x02#8], b)] { md5Signer demoKey45 with blinding := true }) b).2 =
    ((RSAObj.PKCS1.sign wordRng 1 MD5.digest msg).run { md5Signer demoKey45 with blinding := true } b).2 :=
  ((C80_pkcs1_stable MD5.lawful wordRng { md5Signer demoKey45 with blinding := true } (md5Signer_good demoKey45) _
    (by intro x hx; simp only [List.mem_cons, List.not_mem_nil, or_false] at hx; rcases hx with rfl | rfl | rfl; exacts [hm, trivial, trivial]) _ rfl b).2 1
    (Or.inr fun sk hsk => by
      cases hsk
      exact ⟨demoKey45_valid, demoKey45_computed, fun _ => Or.inr (Or.inl (by show Nat.gcd 2 demoKey45.pk.n = 1; decide +kernel))⟩)).2 msg hm

/-- What a failed signature leaves with that key. -/
example (msg b b' : Bytes) (hm : msg.length < 2 ^ 64) (o' : PKCS1.Obj Unit (MD.State MD5.Quad)) (e : Fault)
    (h : (RSAObj.PKCS1.sign wordRng 1 MD5.digest msg).run (md5Signer demoKey45) b = (o', b', .error e)) :
    b' = b ∨ b' = emsa 45 (digestInfo Spec.PKCS1.oidMD5 (Spec.MD5.hash msg)) := by
  have h1 := ((C80_pkcs1_sign MD5.lawful wordRng 1 (md5Signer demoKey45) (md5Signer_good _) _ rfl msg b hm).2 o' b' e h).2
  rwa [show (md5Signer demoKey45).kp.publicKey.modulusLen = 45 from demoKey45_len] at h1

/-- The decryption in the first example is refused, and the buffer stays as it was. -/
example (sk : RSA.PrivateKey) (hl : sk.pk.modulusLen = 45) :
    ((RSAObj.PKCS1.decrypt wordRng 0 [0x01#8]).run (md5Signer sk) [0x07#8]).2 = ([0x07#8], .error (.err .invalidParameter)) := by
  have h := C43_decrypt_length wordRng 0 (md5Signer sk) (show 11 < sk.pk.modulusLen by rw [hl]; decide) [0x01#8]
    (show 1 ≠ sk.pk.modulusLen by rw [hl]; decide)
  rcases RSAObj.PKCS1.decrypt_run wordRng 0 [0x01#8] (md5Signer sk) [0x07#8] with ⟨rd, e, h1, h2⟩ | ⟨rd, m, h1, h2⟩
  · rw [h] at h2; cases h2; rw [h1]
  · rw [h] at h2; cases h2

/-- A PSS object with a public key only, as the constructor makes it for a modulus of 512 bits: `sign` overwrites the one byte in the buffer by 64. -/
example : ∃ (pk : PublicKey) (o' : PSS.Obj Unit (MD.State MD5.Quad)) (b' : Bytes), bitsLen pk.n = 512 ∧
    (RSAObj.PSS.sign false wordRng 0 MD5.digest [0x61#8]).run ⟨.pub pk, 16, MD5.new, (), false⟩ [0x07#8] = (o', b', .error (.err .invalidPrivateKey)) ∧
    b'.length = 64 := by
  obtain ⟨pk, hb⟩ : ∃ pk : PublicKey, bitsLen pk.n = 512 := ⟨pssKey512.pk, pssKey512_bits⟩
  have hg : GoodState (MD.Abs MD5.params MD5.init) (MD.Chk MD5.out Spec.MD5.hash) MD5.new := md5Signer_good demoKey45
  obtain ⟨o', h⟩ := C80_pss_public (σ := Unit) MD5.lawful (by decide) false wordRng 0 ⟨.pub pk, 16, MD5.new, (), false⟩ pk rfl hg [0x61#8] [0x07#8] (by decide)
    (show 8 + 16 + 16 < 2 ^ 64 by decide) (show 16 + 16 + 2 ≤ (bitsLen pk.n - 1 + 7) / 8 by rw [hb]; decide)
  refine ⟨pk, o', _, hb, h, ?_⟩
  rw [PSS.length_pss MD5.lawful.length (by decide) (by rw [List.length_take, OAEP.length_drawWords, hb]; show 16 + min 16 (4 * ((16 + 3) >>> 2)) + 2 ≤ (512 - 1 + 7) / 8; decide), hb]

end Verif.Props
