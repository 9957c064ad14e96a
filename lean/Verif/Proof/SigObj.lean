import Verif.Model.SigObj
import Verif.Proof.RSASame
import Verif.Proof.ECDSA
import Verif.Props.Hash

/-! Helper lemmas: the DSA and ECDSA objects after errors -/

namespace Verif.Model.SigObj
open Verif.Model.RSA (Rng powMod modInv bitsLen hLen hashParts drawWords natBytes)
open Verif.Model.DSA (SigContent ofBeBytes)

variable {σ S C : Type} {d : Digest S} {H : Bytes → Bytes} {bs : Option Nat} {size : Nat} {Abs Chk : S → Bytes → Prop}

namespace DSA

theorem drawK_value (g : Rng σ) (q fuel : Nat) (s : σ) : Model.DSA.drawK g q fuel s = (drawK g q fuel s).2.map fun k => (k, (drawK g q fuel s).1) := by
  induction fuel generalizing s with
  | zero => rfl
  | succ fuel ih =>
    unfold Model.DSA.drawK drawK
    split
    · rfl
    · exact ih _

theorem signLoop_value (g : Rng σ) (fuel : Nat) (sk : Model.DSA.PrivateKey) (hm : Bytes) (h n a : Nat) (s : σ) :
    Model.DSA.signLoop g fuel sk hm h n a s = (signLoop g fuel sk hm h n a s).2.map fun x => (x.1, x.2, (signLoop g fuel sk hm h n a s).1) := by
  induction a generalizing s with
  | zero => rfl
  | succ a ih =>
    unfold Model.DSA.signLoop signLoop
    rw [drawK_value]
    rcases hd : drawK g sk.pk.dp.q fuel s with ⟨s1, e | k⟩
    · rfl
    · dsimp only [Except.map, bind, Except.bind]
      split
      · exact ih _
      · rcases hz : RSA.slice hm 0 (min h n) with e | z
        · rfl
        · dsimp only
          split
          · exact ih _
          · rfl

/-- Everything but the hash object, as a function of the hash of the message. -/
def signCore (g : Rng σ) (fuel : Nat) (kp : Model.DSA.KeyPair) (h : Nat) (hm : Bytes) (rd : σ) (c : SigContent) : σ × SigContent × Res Unit :=
  match kp.privateKey with
  | none => (rd, c, .error (.err .invalidPrivateKey))
  | some sk =>
    if sk.pk.dp.q = 0 ∨ sk.pk.dp.p = 0 ∨ sk.pk.dp.g = 0 ∨ sk.x = 0 ∨ bitsLen sk.pk.dp.q &&& 7 ≠ 0 then (rd, c, .error (.err .invalidPrivateKey))
    else
      match signLoop g fuel sk hm h (bitsLen sk.pk.dp.q >>> 3) 10 rd with
      | (rd, .error e) => (rd, c, .error e)
      | (rd, .ok (r, s)) => (rd, c.set r s, .ok ())

theorem sign_core (L : LawfulDigest d H bs size Abs Chk) (g : Rng σ) (fuel : Nat) (o : Model.DSA.Obj σ S) (hh : ∃ x, Abs o.hf x ∨ Chk o.hf x) (c : SigContent)
    (msg : Bytes) (hm : msg.length < 2 ^ 64) :
    ∃ hf, (∃ x, Abs hf x ∨ Chk hf x) ∧ sign g fuel d o c msg =
      ({ o with hf := hf, rd := (signCore g fuel o.kp size (H msg) o.rd c).1 }, (signCore g fuel o.kp size (H msg) o.rd c).2) := by
  obtain ⟨hf0, e, h0⟩ := RSAObj.hash_same L hh (parts := [msg]) (by simpa using hm)
  rw [show [msg].flatten = msg by simp] at e
  have hl : hLen d o.hf = size := by obtain ⟨x, hx⟩ := hh; exact RSA.hLen_eq L hx
  unfold sign signCore
  cases hp : o.kp.privateKey with
  | none => exact ⟨o.hf, hh, rfl⟩
  | some sk =>
    dsimp only
    split
    · exact ⟨o.hf, hh, rfl⟩
    · refine ⟨hf0, h0, ?_⟩
      rw [e, hl]
      dsimp only
      rcases signLoop g fuel sk (H msg) size (bitsLen sk.pk.dp.q >>> 3) 10 o.rd with ⟨rd, e | ⟨r, s⟩⟩ <;> rfl

/-- The answer of `verify`, as a function of the hash of the message. -/
def verifyCore (kp : Model.DSA.KeyPair) (hm : Bytes) (c : SigContent) : Res Unit :=
  match c.toBigint with
  | .error e => .error e
  | .ok (r, s) =>
    if kp.publicKey.dp.p = 0 ∨ bitsLen kp.publicKey.dp.q &&& 7 ≠ 0 then .error (.err .invalidPublicKey)
    else
      match r, s with
      | some r, some s =>
        if r = 0 ∨ s = 0 ∨ r ≥ kp.publicKey.dp.q ∨ s ≥ kp.publicKey.dp.q then .error (.err .verificationFailed)
        else
          match modInv s kp.publicKey.dp.q with
          | none => .error (.err .verificationFailed)
          | some w =>
            if w = 0 then .error (.err .verificationFailed)
            else if powMod kp.publicKey.dp.g (beNat hm * w % kp.publicKey.dp.q) kp.publicKey.dp.p *
                powMod kp.publicKey.y (r * w % kp.publicKey.dp.q) kp.publicKey.dp.p % kp.publicKey.dp.p % kp.publicKey.dp.q = r then .ok ()
              else .error (.err .verificationFailed)
      | _, _ => .error (.err .verificationFailed)

theorem verify_core (L : LawfulDigest d H bs size Abs Chk) (o : Model.DSA.Obj σ S) (hh : ∃ x, Abs o.hf x ∨ Chk o.hf x) (c : SigContent)
    (msg : Bytes) (hm : msg.length < 2 ^ 64) :
    ∃ hf, (∃ x, Abs hf x ∨ Chk hf x) ∧ verify d o c msg = ({ o with hf := hf }, verifyCore o.kp (H msg) c) := by
  obtain ⟨hf0, e, h0⟩ := RSAObj.hash_same L hh (parts := [msg]) (by simpa using hm)
  rw [show [msg].flatten = msg by simp] at e
  unfold verify verifyCore verifyInner
  rcases c.toBigint with e1 | ⟨r, s⟩
  · exact ⟨o.hf, hh, rfl⟩
  · dsimp only
    by_cases h1 : o.kp.publicKey.dp.p = 0 ∨ bitsLen o.kp.publicKey.dp.q &&& 7 ≠ 0
    · rw [if_pos h1, if_pos h1]; exact ⟨o.hf, hh, rfl⟩
    · rw [if_neg h1, if_neg h1]
      rcases r with - | r
      · exact ⟨o.hf, hh, rfl⟩
      · rcases s with - | s
        · exact ⟨o.hf, hh, rfl⟩
        · dsimp only
          by_cases h2 : r = 0 ∨ s = 0 ∨ r ≥ o.kp.publicKey.dp.q ∨ s ≥ o.kp.publicKey.dp.q
          · rw [if_pos h2, if_pos h2]; exact ⟨o.hf, hh, rfl⟩
          · rw [if_neg h2, if_neg h2]
            rcases modInv s o.kp.publicKey.dp.q with - | w
            · exact ⟨o.hf, hh, rfl⟩
            · dsimp only
              by_cases h3 : w = 0
              · rw [if_pos h3, if_pos h3]; exact ⟨o.hf, hh, rfl⟩
              · rw [if_neg h3, if_neg h3, e]
                refine ⟨hf0, h0, ?_⟩
                dsimp only
                split <;> rfl

/-- Without any assumption: success is success of the value model; an error leaves container and key. -/
theorem sign_value (g : Rng σ) (fuel : Nat) (d : Digest S) (o : Model.DSA.Obj σ S) (c : SigContent) (msg : Bytes) :
    (∃ hf rd e, sign g fuel d o c msg = ({ o with hf := hf, rd := rd }, c, .error e) ∧ Model.DSA.sign g fuel d o c msg = .error e) ∨
    (∃ hf rd c', sign g fuel d o c msg = ({ o with hf := hf, rd := rd }, c', .ok ()) ∧
      Model.DSA.sign g fuel d o c msg = .ok ({ o with hf := hf, rd := rd }, c')) := by
  unfold sign Model.DSA.sign Model.DSA.signInner
  cases hp : o.kp.privateKey with
  | none => exact Or.inl ⟨o.hf, o.rd, _, rfl, rfl⟩
  | some sk =>
    dsimp only
    split
    · exact Or.inl ⟨o.hf, o.rd, _, rfl, rfl⟩
    · rcases hashParts d o.hf [msg] with e | ⟨hf, hm⟩
      · exact Or.inl ⟨o.hf, o.rd, _, rfl, rfl⟩
      · dsimp only [bind, Except.bind]
        rw [signLoop_value]
        rcases signLoop g fuel sk hm (hLen d o.hf) (bitsLen sk.pk.dp.q >>> 3) 10 o.rd with ⟨rd, e | ⟨r, s⟩⟩
        · exact Or.inl ⟨hf, rd, _, rfl, rfl⟩
        · exact Or.inr ⟨hf, rd, _, rfl, rfl⟩

theorem verify_value (d : Digest S) (o : Model.DSA.Obj σ S) (c : SigContent) (msg : Bytes) :
    (∃ hf e, verify d o c msg = ({ o with hf := hf }, .error e) ∧ Model.DSA.verify d o c msg = .error e) ∨
    (∃ hf, verify d o c msg = ({ o with hf := hf }, .ok ()) ∧ Model.DSA.verify d o c msg = .ok { o with hf := hf }) := by
  unfold verify Model.DSA.verify
  rcases c.toBigint with e1 | ⟨r, s⟩
  · exact Or.inl ⟨o.hf, _, rfl, rfl⟩
  · dsimp only [bind, Except.bind]
    unfold verifyInner Model.DSA.verifyInner
    dsimp only [bind, Except.bind]
    by_cases h1 : o.kp.publicKey.dp.p = 0 ∨ bitsLen o.kp.publicKey.dp.q &&& 7 ≠ 0
    · rw [if_pos h1, if_pos h1]; exact Or.inl ⟨o.hf, _, rfl, rfl⟩
    · rw [if_neg h1, if_neg h1]
      rcases r with - | r
      · exact Or.inl ⟨o.hf, _, rfl, rfl⟩
      · rcases s with - | s
        · exact Or.inl ⟨o.hf, _, rfl, rfl⟩
        · dsimp only
          by_cases h2 : r = 0 ∨ s = 0 ∨ r ≥ o.kp.publicKey.dp.q ∨ s ≥ o.kp.publicKey.dp.q
          · rw [if_pos h2, if_pos h2]; exact Or.inl ⟨o.hf, _, rfl, rfl⟩
          · rw [if_neg h2, if_neg h2]
            rcases modInv s o.kp.publicKey.dp.q with - | w
            · exact Or.inl ⟨o.hf, _, rfl, rfl⟩
            · dsimp only
              by_cases h3 : w = 0
              · rw [if_pos h3, if_pos h3]; exact Or.inl ⟨o.hf, _, rfl, rfl⟩
              · rw [if_neg h3, if_neg h3]
                rcases hashParts d o.hf [msg] with e | ⟨hf, hm⟩
                · exact Or.inl ⟨o.hf, _, rfl, rfl⟩
                · dsimp only
                  split
                  · exact Or.inr ⟨hf, rfl, rfl⟩
                  · exact Or.inl ⟨hf, _, rfl, rfl⟩

end DSA

namespace ECDSA
open Verif.Model.ECDSA (Obj CSPRng aesIv signLoop secretBytes)
open Verif.Model.Elliptic (EllipticCurve KeyPair)

theorem sign_value (g : Rng σ) (E : EllipticCurve C) (fuel : Nat) (d : Digest S) (o : Obj σ S C) (c : SigContent) (msg : Bytes) :
    (∃ hf hb rd md e, sign g E fuel d o c msg = ({ o with hf := hf, hashBuf := hb, rd := rd, md := md }, c, .error e) ∧
      Model.ECDSA.sign g E fuel d o c msg = .error e) ∨
    (∃ hf hb rd md c', sign g E fuel d o c msg = ({ o with hf := hf, hashBuf := hb, rd := rd, md := md }, c', .ok ()) ∧
      Model.ECDSA.sign g E fuel d o c msg = .ok ({ o with hf := hf, hashBuf := hb, rd := rd, md := md }, c')) := by
  unfold sign Model.ECDSA.sign Model.ECDSA.signInner
  rcases hashParts d o.hf [msg] with e | ⟨hf, hb⟩
  · exact Or.inl ⟨o.hf, o.hashBuf, o.rd, o.md, _, rfl, rfl⟩
  · dsimp only [bind, Except.bind]
    cases hp : o.kp.privateKey with
    | none => exact Or.inl ⟨hf, hb, o.rd, o.md, _, rfl, rfl⟩
    | some pk =>
      dsimp only
      cases hd : o.dBytes with
      | none => exact Or.inl ⟨hf, hb, o.rd, o.md, _, rfl, rfl⟩
      | some db =>
        dsimp only
        generalize he : (drawWords g (max 1 ((min 32 (((E.curveParams o.curve).bitSize + 7) >>> 4) + 3) >>> 2)) o.rd) = dw
        rcases hashParts SHA2.sha512 o.md [db, List.take (min 32 (((E.curveParams o.curve).bitSize + 7) >>> 4)) dw.1, hb] with e | ⟨md, key⟩
        · exact Or.inl ⟨hf, hb, dw.2, o.md, _, rfl, rfl⟩
        · dsimp only
          rcases CSPRng.new (key.take 32) aesIv with e | rng
          · exact Or.inl ⟨hf, hb, dw.2, md, _, rfl, rfl⟩
          · dsimp only
            split
            · rcases signLoop E o.curve pk.d hb fuel rng with e | ⟨r, s⟩
              · exact Or.inl ⟨hf, hb, dw.2, md, _, rfl, rfl⟩
              · exact Or.inr ⟨hf, hb, dw.2, md, _, rfl, rfl⟩
            · exact Or.inl ⟨hf, hb, dw.2, md, _, rfl, rfl⟩

theorem verify_value (E : EllipticCurve C) (d : Digest S) (o : Obj σ S C) (c : SigContent) (msg : Bytes) :
    (∃ hf hb e, verify E d o c msg = ({ o with hf := hf, hashBuf := hb }, .error e) ∧ Model.ECDSA.verify E d o c msg = .error e) ∨
    (∃ hf hb, verify E d o c msg = ({ o with hf := hf, hashBuf := hb }, .ok ()) ∧
      Model.ECDSA.verify E d o c msg = .ok { o with hf := hf, hashBuf := hb }) := by
  unfold verify Model.ECDSA.verify
  rcases hashParts d o.hf [msg] with e | ⟨hf, hb⟩
  · exact Or.inl ⟨o.hf, o.hashBuf, _, rfl, rfl⟩
  · dsimp only [bind, Except.bind]
    rcases c.toBigint with e1 | ⟨r, s⟩
    · exact Or.inl ⟨hf, hb, _, rfl, rfl⟩
    · dsimp only
      rcases hv : Model.ECDSA.verifyInner E { o with hf := hf, hashBuf := hb } r s with e | u
      · exact Or.inl ⟨hf, hb, e, rfl, rfl⟩
      · exact Or.inr ⟨hf, hb, rfl, rfl⟩

/-- The answer of `verify` depends on curve, key and message hash only. -/
theorem verifyInner_core (E : EllipticCurve C) (o p : Obj σ S C) (hc : o.curve = p.curve) (hk : o.kp = p.kp) (hb : o.hashBuf = p.hashBuf) (r s : Option Nat) :
    Model.ECDSA.verifyInner E o r s = Model.ECDSA.verifyInner E p r s := by
  unfold Model.ECDSA.verifyInner
  rw [hc, hk, hb]

/-- Everything but the hash objects, as a function of the hash of the message. -/
def signCore (g : Rng σ) (E : EllipticCurve C) (fuel : Nat) (cv : C) (kp : KeyPair) (hash : Bytes) (rd : σ) (c : SigContent) : σ × SigContent × Res Unit :=
  match kp.privateKey with
  | none => (rd, c, .error (.err .invalidPrivateKey))
  | some pk =>
    let entropyLen := min 32 (((E.curveParams cv).bitSize + 7) >>> 4)
    let dw := drawWords g (max 1 ((entropyLen + 3) >>> 2)) rd
    (dw.2,
      match CSPRng.new ((Spec.SHA.sha512 [secretBytes pk.d, dw.1.take entropyLen, hash].flatten).take 32) aesIv with
      | .error e => (c, .error e)
      | .ok rng =>
        if (E.curveParams cv).n > 0 then
          match signLoop E cv pk.d hash fuel rng with
          | .error e => (c, .error e)
          | .ok (r, s) => (c.set r.toNat s.toNat, .ok ())
        else (c, .error (.err .invalidPrivateKey)))

theorem sign_core (L : LawfulDigest d H bs size Abs Chk) (g : Rng σ) (E : EllipticCurve C) (fuel : Nat) (o : Obj σ S C)
    (hh : ∃ x, Abs o.hf x ∨ Chk o.hf x)
    (hmd : ∃ x, MD.Abs SHA2.params512 SHA2.init512 o.md x ∨ MD.Chk (fun q => (SHA2.out512 q).take 64) Spec.SHA.sha512 o.md x)
    (hb : o.dBytes = o.kp.privateKey.map fun e => secretBytes e.d) (c : SigContent) (msg : Bytes) (hm : msg.length < 2 ^ 64)
    (hl : ∀ sk, o.kp.privateKey = some sk → (secretBytes sk.d).length + 32 + size < 2 ^ 64) :
    ∃ hf md, (∃ x, Abs hf x ∨ Chk hf x) ∧
      (∃ x, MD.Abs SHA2.params512 SHA2.init512 md x ∨ MD.Chk (fun q => (SHA2.out512 q).take 64) Spec.SHA.sha512 md x) ∧ sign g E fuel d o c msg =
      ({ o with hf := hf, md := md, hashBuf := H msg, rd := (signCore g E fuel o.curve o.kp (H msg) o.rd c).1 },
        (signCore g E fuel o.curve o.kp (H msg) o.rd c).2) := by
  obtain ⟨hf0, e, h0⟩ := RSAObj.hash_same L hh (parts := [msg]) (by simpa using hm)
  rw [show [msg].flatten = msg by simp] at e
  unfold sign signCore
  rw [e]
  dsimp only
  cases hp : o.kp.privateKey with
  | none => exact ⟨hf0, o.md, h0, hmd, rfl⟩
  | some pk =>
    dsimp only
    rw [hp] at hb
    rw [hb]
    dsimp only [Option.map]
    generalize drawWords g (max 1 ((min 32 (((E.curveParams o.curve).bitSize + 7) >>> 4) + 3) >>> 2)) o.rd = dw
    generalize hel : min 32 (((E.curveParams o.curve).bitSize + 7) >>> 4) = el
    have hel32 : el ≤ 32 := by omega
    obtain ⟨md0, e2, h2⟩ := RSAObj.hash_same SHA2.law512 hmd (parts := [secretBytes pk.d, dw.1.take el, H msg]) (by
      have := hl pk hp
      simp only [List.flatten_cons, List.flatten_nil, List.append_nil, List.length_append, List.length_take, L.length]
      omega)
    refine ⟨hf0, md0, h0, h2, ?_⟩
    rw [e2]
    dsimp only
    rcases CSPRng.new ((Spec.SHA.sha512 [secretBytes pk.d, dw.1.take el, H msg].flatten).take 32) aesIv with e | rng
    · rfl
    · dsimp only
      split
      · rcases signLoop E o.curve pk.d (H msg) fuel rng with e | ⟨r, s⟩ <;> rfl
      · rfl

end ECDSA

end Verif.Model.SigObj
