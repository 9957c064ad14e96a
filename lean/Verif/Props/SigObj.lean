import Verif.Proof.SigObj
import Verif.Props.DSA
import Verif.Props.ECDSA

/-! Property C81: DSA and ECDSA objects and signature containers after errors -/

namespace Verif.Props
open Verif.Model Verif.Model.RSA
open Verif.Model.DSA (SigContent)
open Verif.Model.Elliptic (EllipticCurve)

variable {σ S C : Type} {d : Digest S} {H : Bytes → Bytes} {bs : Option Nat} {size : Nat} {Abs Chk : S → Bytes → Prop}

/-- A call on a signing object with the container that is handed in; `fuel` bounds the draws from the random source. -/
inductive SigCall where
  | sign (fuel : Nat) (c : SigContent) (msg : Bytes)
  | verify (c : SigContent) (msg : Bytes)

/-- The message of a call has less than 2^64 bytes. -/
def SigCall.Fits : SigCall → Prop
  | .sign _ _ msg => msg.length < 2 ^ 64
  | .verify _ msg => msg.length < 2 ^ 64

/-- A call on a DSA object: the new object, the container afterwards and the result. -/
def SigCall.dsa (g : Rng σ) (d : Digest S) (o : DSA.Obj σ S) : SigCall → DSA.Obj σ S × SigContent × Res Unit
  | .sign fuel c msg => SigObj.DSA.sign g fuel d o c msg
  | .verify c msg => ((SigObj.DSA.verify d o c msg).1, c, (SigObj.DSA.verify d o c msg).2)

/-- A call on an ECDSA object. -/
def SigCall.ecdsa (g : Rng σ) (E : EllipticCurve C) (d : Digest S) (o : ECDSA.Obj σ S C) : SigCall → ECDSA.Obj σ S C × SigContent × Res Unit
  | .sign fuel c msg => SigObj.ECDSA.sign g E fuel d o c msg
  | .verify c msg => ((SigObj.ECDSA.verify E d o c msg).1, c, (SigObj.ECDSA.verify E d o c msg).2)

/-- The object after a list of calls, whatever they returned. -/
def sigAfter {O : Type} (call : O → SigCall → O × SigContent × Res Unit) (calls : List SigCall) (o : O) : O := calls.foldl (fun o c => (call o c).1) o

/-! ## The container -/

/-- C81: a DSA signature that succeeds is that of C49; one that fails leaves the container as it was, and the key. For every object and container. -/
theorem C81_dsa_sign (g : Rng σ) (fuel : Nat) (d : Digest S) (o : DSA.Obj σ S) (c : SigContent) (msg : Bytes) :
    (∀ o' c', SigObj.DSA.sign g fuel d o c msg = (o', c', .ok ()) ↔ DSA.sign g fuel d o c msg = .ok (o', c')) ∧
    ∀ o' c' e, SigObj.DSA.sign g fuel d o c msg = (o', c', .error e) → DSA.sign g fuel d o c msg = .error e ∧ c' = c ∧ o'.kp = o.kp := by
  rcases SigObj.DSA.sign_value g fuel d o c msg with ⟨hf, rd, e, h1, h2⟩ | ⟨hf, rd, c', h1, h2⟩ <;> rw [h1, h2]
  · exact ⟨fun o' c' => ⟨fun h => (by cases h), fun h => (by cases h)⟩, fun o' c' e' h => by cases h; exact ⟨rfl, rfl, rfl⟩⟩
  · exact ⟨fun o' c' => ⟨fun h => (by cases h; rfl), fun h => (by cases h; rfl)⟩, fun o' c' e' h => by cases h⟩

/-- C81: the same for ECDSA. -/
theorem C81_ecdsa_sign (g : Rng σ) (E : EllipticCurve C) (fuel : Nat) (d : Digest S) (o : ECDSA.Obj σ S C) (c : SigContent) (msg : Bytes) :
    (∀ o' c', SigObj.ECDSA.sign g E fuel d o c msg = (o', c', .ok ()) ↔ ECDSA.sign g E fuel d o c msg = .ok (o', c')) ∧
    ∀ o' c' e, SigObj.ECDSA.sign g E fuel d o c msg = (o', c', .error e) →
      ECDSA.sign g E fuel d o c msg = .error e ∧ c' = c ∧ o'.kp = o.kp ∧ o'.curve = o.curve ∧ o'.dBytes = o.dBytes := by
  rcases SigObj.ECDSA.sign_value g E fuel d o c msg with ⟨hf, hb, rd, md, e, h1, h2⟩ | ⟨hf, hb, rd, md, c', h1, h2⟩ <;> rw [h1, h2]
  · exact ⟨fun o' c' => ⟨fun h => (by cases h), fun h => (by cases h)⟩, fun o' c' e' h => by cases h; exact ⟨rfl, rfl, rfl, rfl, rfl⟩⟩
  · exact ⟨fun o' c' => ⟨fun h => (by cases h; rfl), fun h => (by cases h; rfl)⟩, fun o' c' e' h => by cases h⟩

/-- C81: `verify` answers as in the models of C49 and C53 and leaves key and random source alone. -/
theorem C81_verify (E : EllipticCurve C) (d : Digest S) (o : DSA.Obj σ S) (p : ECDSA.Obj σ S C) (c : SigContent) (msg : Bytes) :
    ((SigObj.DSA.verify d o c msg).2 = (DSA.verify d o c msg).map (fun _ => ()) ∧ (SigObj.DSA.verify d o c msg).1.kp = o.kp ∧
      (SigObj.DSA.verify d o c msg).1.rd = o.rd) ∧
    (SigObj.ECDSA.verify E d p c msg).2 = (ECDSA.verify E d p c msg).map (fun _ => ()) ∧ (SigObj.ECDSA.verify E d p c msg).1.kp = p.kp ∧
      (SigObj.ECDSA.verify E d p c msg).1.rd = p.rd ∧ (SigObj.ECDSA.verify E d p c msg).1.curve = p.curve := by
  constructor
  · rcases SigObj.DSA.verify_value d o c msg with ⟨hf, e, h1, h2⟩ | ⟨hf, h1, h2⟩ <;> rw [h1, h2] <;> exact ⟨rfl, rfl, rfl⟩
  · rcases SigObj.ECDSA.verify_value E d p c msg with ⟨hf, hb, e, h1, h2⟩ | ⟨hf, hb, h1, h2⟩ <;> rw [h1, h2] <;> exact ⟨rfl, rfl, rfl, rfl⟩

/-! ## Histories -/

/-- What a call on a DSA object does, apart from the hash object, is given by key, random source and hash of the message. -/
theorem dsa_call_core (L : LawfulDigest d H bs size Abs Chk) (g : Rng σ) (c : SigCall) (hc : c.Fits) (o p : DSA.Obj σ S) (hk : o.kp = p.kp)
    (ho : GoodState Abs Chk o.hf) (hp : GoodState Abs Chk p.hf) :
    (c.dsa g d o).1.kp = o.kp ∧ GoodState Abs Chk (c.dsa g d o).1.hf ∧
    (o.rd = p.rd → (c.dsa g d o).2 = (c.dsa g d p).2 ∧ (c.dsa g d o).1.rd = (c.dsa g d p).1.rd) := by
  cases c with
  | sign fuel c msg =>
    obtain ⟨hf1, g1, e1⟩ := SigObj.DSA.sign_core L g fuel o ho c msg hc
    obtain ⟨hf2, g2, e2⟩ := SigObj.DSA.sign_core L g fuel p hp c msg hc
    dsimp only [SigCall.dsa]
    rw [e1, e2]
    exact ⟨rfl, g1, fun hr => by dsimp only; rw [hk, hr]; exact ⟨rfl, rfl⟩⟩
  | verify c msg =>
    obtain ⟨hf1, g1, e1⟩ := SigObj.DSA.verify_core L o ho c msg hc
    obtain ⟨hf2, g2, e2⟩ := SigObj.DSA.verify_core L p hp c msg hc
    dsimp only [SigCall.dsa]
    rw [e1, e2]
    exact ⟨rfl, g1, fun hr => by dsimp only; rw [hk]; exact ⟨rfl, hr⟩⟩

theorem dsa_after (L : LawfulDigest d H bs size Abs Chk) (g : Rng σ) (calls : List SigCall) (hc : ∀ c ∈ calls, c.Fits) (o : DSA.Obj σ S)
    (ho : GoodState Abs Chk o.hf) :
    (sigAfter (SigCall.dsa g d) calls o).kp = o.kp ∧ GoodState Abs Chk (sigAfter (SigCall.dsa g d) calls o).hf := by
  induction calls generalizing o with
  | nil => exact ⟨rfl, ho⟩
  | cons c calls ih =>
    obtain ⟨h1, h2, -⟩ := dsa_call_core L g c (hc c List.mem_cons_self) o o rfl ho ho
    obtain ⟨h3, h4⟩ := ih (fun x hx => hc x (List.mem_cons_of_mem _ hx)) _ h2
    exact ⟨h3.trans h1, h4⟩

/-- C81: after every list of calls on a DSA object, failing ones among them, the key is unchanged; every further call returns the same, leaves the same in
the container and leaves the random source in the same state as on an object built anew with the random source in its present state; and `verify` gives the
answer it gave before. -/
theorem C81_dsa_history (L : LawfulDigest d H bs size Abs Chk) (g : Rng σ) (o : DSA.Obj σ S) (ho : GoodState Abs Chk o.hf)
    (calls : List SigCall) (hc : ∀ c ∈ calls, c.Fits) (o' : DSA.Obj σ S) (ho' : o' = sigAfter (SigCall.dsa g d) calls o) :
    o'.kp = o.kp ∧ GoodState Abs Chk o'.hf ∧
    (∀ fresh : S, GoodState Abs Chk fresh → ∀ c : SigCall, c.Fits →
      (c.dsa g d o').2 = (c.dsa g d ⟨fresh, o'.rd, o.kp⟩).2 ∧ (c.dsa g d o').1.rd = (c.dsa g d ⟨fresh, o'.rd, o.kp⟩).1.rd) ∧
    ∀ (c : SigContent) (msg : Bytes), msg.length < 2 ^ 64 → (SigObj.DSA.verify d o' c msg).2 = (SigObj.DSA.verify d o c msg).2 := by
  obtain ⟨h1, h2⟩ := dsa_after L g calls hc o ho
  rw [← ho'] at h1 h2
  refine ⟨h1, h2, fun fresh hf c hcf => (dsa_call_core L g c hcf o' ⟨fresh, o'.rd, o.kp⟩ h1 h2 hf).2.2 rfl, fun c msg hm => ?_⟩
  obtain ⟨_, -, e1⟩ := SigObj.DSA.verify_core L o' h2 c msg hm
  obtain ⟨_, -, e2⟩ := SigObj.DSA.verify_core L o ho c msg hm
  rw [e1, e2, h1]

/-- The bytes of the secret, the entropy and a message hash together have less than 2^64 bytes. -/
def SecretFits (size : Nat) (kp : Elliptic.KeyPair) : Prop := ∀ sk, kp.privateKey = some sk → (ECDSA.secretBytes sk.d).length + 32 + size < 2 ^ 64

theorem ecdsa_call_core (L : LawfulDigest d H bs size Abs Chk) (g : Rng σ) (E : EllipticCurve C) (c : SigCall) (hc : c.Fits) (o p : ECDSA.Obj σ S C)
    (hs : SecretFits size o.kp) (hk : o.kp = p.kp) (hcv : o.curve = p.curve) (ho : GoodObj Abs Chk o) (hp : GoodObj Abs Chk p) :
    (c.ecdsa g E d o).1.kp = o.kp ∧ (c.ecdsa g E d o).1.curve = o.curve ∧ GoodObj Abs Chk (c.ecdsa g E d o).1 ∧
    (o.rd = p.rd → (c.ecdsa g E d o).2 = (c.ecdsa g E d p).2 ∧ (c.ecdsa g E d o).1.rd = (c.ecdsa g E d p).1.rd) := by
  cases c with
  | sign fuel c msg =>
    obtain ⟨hf1, md1, g1, m1, e1⟩ := SigObj.ECDSA.sign_core L g E fuel o ho.hf ho.md ho.bytes c msg hc hs
    obtain ⟨hf2, md2, g2, m2, e2⟩ := SigObj.ECDSA.sign_core L g E fuel p hp.hf hp.md hp.bytes c msg hc (hk ▸ hs)
    dsimp only [SigCall.ecdsa]
    rw [e1, e2]
    exact ⟨rfl, rfl, ⟨g1, m1, ho.bytes⟩, fun hr => by dsimp only; rw [hk, hr, hcv]; exact ⟨rfl, rfl⟩⟩
  | verify c msg =>
    have hm : [msg].flatten.length < 2 ^ 64 := by simpa [SigCall.Fits] using hc
    obtain ⟨hf1, e1, g1⟩ := RSAObj.hash_same L ho.hf (parts := [msg]) hm
    obtain ⟨hf2, e2, g2⟩ := RSAObj.hash_same L hp.hf (parts := [msg]) hm
    dsimp only [SigCall.ecdsa, SigObj.ECDSA.verify]
    rw [e1, e2]
    dsimp only
    rcases c.toBigint with e | ⟨r, s⟩
    · exact ⟨rfl, rfl, ⟨g1, ho.md, ho.bytes⟩, fun hr => ⟨rfl, hr⟩⟩
    · refine ⟨rfl, rfl, ⟨g1, ho.md, ho.bytes⟩, fun hr => ⟨?_, hr⟩⟩
      dsimp only
      rw [SigObj.ECDSA.verifyInner_core E { o with hf := hf1, hashBuf := H [msg].flatten } { p with hf := hf2, hashBuf := H [msg].flatten } hcv hk rfl]

theorem ecdsa_after (L : LawfulDigest d H bs size Abs Chk) (g : Rng σ) (E : EllipticCurve C) (calls : List SigCall) (hc : ∀ c ∈ calls, c.Fits)
    (o : ECDSA.Obj σ S C) (hs : SecretFits size o.kp) (ho : GoodObj Abs Chk o) :
    (sigAfter (SigCall.ecdsa g E d) calls o).kp = o.kp ∧ (sigAfter (SigCall.ecdsa g E d) calls o).curve = o.curve ∧
    GoodObj Abs Chk (sigAfter (SigCall.ecdsa g E d) calls o) := by
  induction calls generalizing o with
  | nil => exact ⟨rfl, rfl, ho⟩
  | cons c calls ih =>
    obtain ⟨h1, h2, h3, -⟩ := ecdsa_call_core L g E c (hc c List.mem_cons_self) o o hs rfl rfl ho ho
    obtain ⟨h4, h5, h6⟩ := ih (fun x hx => hc x (List.mem_cons_of_mem _ hx)) _ (by rw [h1]; exact hs) h3
    exact ⟨h4.trans h1, h5.trans h2, h6⟩

/-- C81: after every list of calls on an ECDSA object, failing ones among them, key and curve are unchanged; every further call returns the same, leaves
the same in the container and leaves the random source in the same state as on an object built anew with the random source in its present state; and `verify`
gives the answer it gave before. In particular no secret and no message hash of an earlier call gets into a later signature. -/
theorem C81_ecdsa_history (L : LawfulDigest d H bs size Abs Chk) (g : Rng σ) (E : EllipticCurve C) (o : ECDSA.Obj σ S C) (hs : SecretFits size o.kp)
    (ho : GoodObj Abs Chk o) (calls : List SigCall) (hc : ∀ c ∈ calls, c.Fits) (o' : ECDSA.Obj σ S C)
    (ho' : o' = sigAfter (SigCall.ecdsa g E d) calls o) :
    o'.kp = o.kp ∧ o'.curve = o.curve ∧ GoodObj Abs Chk o' ∧
    (∀ fresh : S, GoodState Abs Chk fresh → ∀ c : SigCall, c.Fits →
      (c.ecdsa g E d o').2 = (c.ecdsa g E d (ECDSA.newUncheck fresh o'.rd o.curve o.kp)).2 ∧
      (c.ecdsa g E d o').1.rd = (c.ecdsa g E d (ECDSA.newUncheck fresh o'.rd o.curve o.kp)).1.rd) ∧
    ∀ (c : SigContent) (msg : Bytes), msg.length < 2 ^ 64 → (SigObj.ECDSA.verify E d o' c msg).2 = (SigObj.ECDSA.verify E d o c msg).2 := by
  obtain ⟨h1, h2, h3⟩ := ecdsa_after L g E calls hc o hs ho
  rw [← ho'] at h1 h2 h3
  refine ⟨h1, h2, h3, fun fresh hf c hcf => ?_, fun c msg hm => ?_⟩
  · exact (ecdsa_call_core L g E c hcf o' (ECDSA.newUncheck fresh o'.rd o.curve o.kp) (by rw [h1]; exact hs) h1 h2 h3 (C53_new fresh hf o'.rd o.curve o.kp)).2.2.2 rfl
  · have h4 := (ecdsa_call_core L g E (.verify c msg) hm o' { o with rd := o'.rd } (by rw [h1]; exact hs) h1 h2 h3 ⟨ho.hf, ho.md, ho.bytes⟩).2.2.2 rfl
    have h6 := congrArg Prod.snd h4.1
    have h7 : (SigObj.ECDSA.verify E d { o with rd := o'.rd } c msg).2 = (SigObj.ECDSA.verify E d o c msg).2 := by
      unfold SigObj.ECDSA.verify
      rcases hashParts d o.hf [msg] with e | ⟨hf, hb⟩
      · rfl
      · rcases c.toBigint with e | ⟨r, s⟩
        · rfl
        · exact SigObj.ECDSA.verifyInner_core E _ _ rfl rfl rfl r s
    exact Eq.trans h6 h7

/-! ## The hypotheses can be met -/

/-- A public key refuses to sign; the container keeps what it held. -/
example : (SigObj.DSA.sign wordRng 1 MD5.digest (⟨MD5.new, (), .pub ⟨⟨35141, 251, 4⟩, 5⟩⟩ : DSA.Obj Unit _) ⟨[1#8, 2#8], 1, 1⟩ [0x61#8]).2 =
    (⟨[1#8, 2#8], 1, 1⟩, .error (.err .invalidPrivateKey)) := rfl

/-- P-256 with SHA-256: a signature after two verifications of a wrong signature is the signature of a new object. -/
example (c : SigContent) (msg : Bytes) (hm : msg.length < 2 ^ 64) :
    (SigObj.ECDSA.sign wordRng Elliptic.generic 1 SHA2.sha256
      (sigAfter (SigCall.ecdsa wordRng Elliptic.generic SHA2.sha256) [.verify c [0x61#8], .verify .new []] demoECDSA) .new msg).2 =
    (SigObj.ECDSA.sign wordRng Elliptic.generic 1 SHA2.sha256 demoECDSA .new msg).2 := by
  have hg : GoodObj (MD.Abs SHA2.params256 SHA2.init256) (MD.Chk (fun q => (SHA2.out256 q).take 32) Spec.SHA.sha256) demoECDSA := C53_new _ good256 _ _ _
  have hs : SecretFits 32 demoECDSA.kp := fun sk hsk => by
    cases hsk
    show (natBytes 1).length + 32 + 32 < 2 ^ 64
    rw [natBytes_one]
    decide
  have h := C81_ecdsa_history SHA2.law256 wordRng Elliptic.generic demoECDSA hs hg [.verify c [0x61#8], .verify .new []]
    (by intro x hx; simp only [List.mem_cons, List.not_mem_nil, or_false] at hx; rcases hx with rfl | rfl <;> simp [SigCall.Fits]) _ rfl
  exact (h.2.2.2.1 _ good256 (.sign 1 .new msg) hm).1

end Verif.Props
