import Verif.Proof.ECDSA
import Verif.Props.Elliptic
import Verif.Props.PKCS1
import Verif.Props.Hash
import Verif.Props.DSA

/-! Properties C53, C54 and C67 (ECDSA) -/

namespace Verif.Props
open Verif.Model Verif.Model.RSA Verif.Spec.ECDSA Verif.Spec.Elliptic
open Verif.Model.Elliptic (CurveParams EllipticCurve)
open Verif.Model.ECDSA (Setting)

section
variable {σ S C : Type} {dg : Digest S} {H : Bytes → Bytes} {bs : Option Nat} {size : Nat} {Abs Chk : S → Bytes → Prop}

/-- An ECDSA object that has only been used through its interface: the two hash objects are in order and the cached bytes of the secret belong to the
key. The last message hash in the buffer is arbitrary. -/
structure GoodObj (Abs Chk : S → Bytes → Prop) (o : ECDSA.Obj σ S C) : Prop where
  hf : GoodState Abs Chk o.hf
  md : GoodState (MD.Abs SHA2.params512 SHA2.init512) (MD.Chk (fun q => (SHA2.out512 q).take 64) Spec.SHA.sha512) o.md
  bytes : o.dBytes = o.kp.privateKey.map fun e => ECDSA.secretBytes e.d

/-- New objects are good; `sign` and `verify` keep this (`C53_sign`, `C53_verify_exact`). -/
theorem C53_new (hf : S) (hh : GoodState Abs Chk hf) (rd : σ) (cv : C) (kp : Elliptic.KeyPair) : GoodObj Abs Chk (ECDSA.newUncheck hf rd cv kp) :=
  ⟨hh, ⟨[], Or.inl (MD.abs_new SHA2.params512 (by decide) SHA2.init512)⟩, rfl⟩

/-- The multiples of the base point that a curve object computes are those of the generic code. For the generic curves this holds by definition. -/
def BaseOk (E : EllipticCurve C) (cv : C) (n : ℕ) : Prop :=
  ∀ k, 0 < k → k < n → E.scalarBasePoint cv (some k) = Elliptic.scalarBasePoint (E.curveParams cv) (some k)

variable {E : EllipticCurve C} {p n : ℕ} [hpf : Fact p.Prime]

/-- C53 and C67: what `sign` does for every key with a secret, message and random source. The secret of attempt `i` is `nonce n b key i`, where `key` is
made of the private key, the entropy drawn and the message hash; `sign` returns the FIPS 186-4 signature of the first attempt that gives one. If none of
the first `fuel` attempts does, the loop is still running. There is no other outcome. The curve object has to compute the x coordinates of the multiples
of the base point by these secrets correctly; for the generic curves and `CurveP256` this holds for all secrets (`C67_sign`). -/
theorem C67_sign_at (L : LawfulDigest dg H bs size Abs Chk) (hsz : 0 < size) (g : Rng σ) (fuel : ℕ) (o : ECDSA.Obj σ S C) (ho : GoodObj Abs Chk o)
    {G : Point p (E.curveParams o.curve).b} (hS : Setting (E.curveParams o.curve) p n G) (pk : Elliptic.PublicKey) (d : ℕ)
    (hk : o.kp = .pri ⟨pk, some (d : ℤ)⟩) (old : DSA.SigContent) (msg : Bytes) (hm : msg.length < 2 ^ 64)
    (hl : (natBytes d).length + size < 2 ^ 63) :
    let b := (E.curveParams o.curve).bitSize / 8 + 8
    let len := min 32 (((E.curveParams o.curve).bitSize + 7) / 16)
    let drawn := drawWords g (max 1 ((len + 3) / 4)) o.rd
    let k := nonce n b (nonceKey (natBytes d) (drawn.1.take len) (H msg))
    (∀ i < fuel, (E.scalarBasePoint o.curve (some (k i))).1 = (Elliptic.scalarBasePoint (E.curveParams o.curve) (some (k i))).1) →
    (∃ (o' : ECDSA.Obj σ S C) (i r s : ℕ), i < fuel ∧ IsSignature G n d (hashNumber n (H msg)) (k i) r s ∧
        (∀ j < i, ¬ ∃ r s, IsSignature G n d (hashNumber n (H msg)) (k j) r s) ∧
        ECDSA.sign g E fuel dg o old msg = .ok (o', old.set r s) ∧ o'.kp = o.kp ∧ o'.curve = o.curve ∧ o'.rd = drawn.2 ∧ GoodObj Abs Chk o') ∨
      ((∀ j < fuel, ¬ ∃ r s, IsSignature G n d (hashNumber n (H msg)) (k j) r s) ∧ ECDSA.sign g E fuel dg o old msg = .error .diverge) := by
  intro b len drawn k hE
  obtain ⟨⟨x, hx⟩, ⟨x5, hx5⟩, hby⟩ := ho
  obtain ⟨hf', e, hc⟩ := hashParts_ok L hx [msg] (by simpa using hm)
  rw [show [msg].flatten = msg by simp] at e hc
  have hlen : (drawn.1.take len).length ≤ 32 := by rw [List.length_take]; omega
  obtain ⟨md', e5, hc5⟩ := hashParts_ok SHA2.law512 hx5 [natBytes d, drawn.1.take len, H msg] (by
    simp only [List.flatten_cons, List.flatten_nil, List.length_append, List.append_nil, L.length msg]
    omega)
  have hH : H msg ≠ [] := by
    intro h0
    have := L.length msg
    rw [h0] at this
    simp at this
    omega
  have hkl : (Spec.SHA.sha512 ([natBytes d, drawn.1.take len, H msg].flatten)).length = 64 := SHA2.law512.length _
  obtain ⟨rng, e6, hrng⟩ := ECDSA.csprng_new (key := (Spec.SHA.sha512 ([natBytes d, drawn.1.take len, H msg].flatten)).take 32) (by
    rw [List.length_take, hkl]; rfl)
  have hn0 : (E.curveParams o.curve).n > 0 := by rw [hS.n_eq]; exact_mod_cast hS.prime.pos
  have hkey : (Spec.SHA.sha512 ([natBytes d, drawn.1.take len, H msg].flatten)).take 32 = nonceKey (natBytes d) (drawn.1.take len) (H msg) := by
    unfold nonceKey
    rw [List.flatten_cons, List.flatten_cons, List.flatten_cons, List.flatten_nil, List.append_nil, List.append_assoc]
  rw [hkey] at hrng e6
  have e5' : hashParts SHA2.sha512 o.md [natBytes d, (drawWords g (max 1 ((len + 3) / 4)) o.rd).1.take len, H msg] =
      .ok (md', Spec.SHA.sha512 ([natBytes d, drawn.1.take len, H msg].flatten)) := e5
  have hd2 : o.dBytes = some (natBytes d) := by rw [hby, hk]; rfl
  have key : ECDSA.sign g E fuel dg o old msg = (ECDSA.signLoop E o.curve (some (d : ℤ)) (H msg) fuel rng).bind fun t =>
      .ok ({ o with hf := hf', hashBuf := H msg, md := md', rd := drawn.2 }, old.set t.1.toNat t.2.toNat) := by
    unfold ECDSA.sign ECDSA.signInner
    simp only [bind, Except.bind, e, hk, hd2, Elliptic.KeyPair.privateKey, Nat.shiftRight_eq_div_pow]
    rw [show (2 ^ 4 : ℕ) = 16 from rfl, show (2 ^ 2 : ℕ) = 4 from rfl]
    rw [show min 32 (((E.curveParams o.curve).bitSize + 7) / 16) = len from rfl, e5']
    dsimp only
    rw [hkey, e6]
    dsimp only
    rw [if_pos hn0]
    cases ECDSA.signLoop E o.curve (some (d : ℤ)) (H msg) fuel rng with
    | error e => rfl
    | ok t => rfl
  rcases ECDSA.signLoop_ok hS d hH b rfl (nonceKey (natBytes d) (drawn.1.take len) (H msg)) fuel 0 rng
    (fun j _ h => hE j (by omega)) (by rw [Nat.zero_mul]; exact hrng) with
    ⟨j, r, s, -, h2, h3, h4, h5⟩ | ⟨h1, h2⟩
  · left
    refine ⟨{ o with hf := hf', hashBuf := H msg, md := md', rd := drawn.2 }, j, r, s, by omega, h3, fun l hl => h4 l (Nat.zero_le _) hl, ?_, rfl, rfl, rfl,
      ⟨_, Or.inr hc⟩, ⟨_, Or.inr hc5⟩, hby⟩
    rw [key, h5]
    rfl
  · right
    refine ⟨fun l hl => h1 l (Nat.zero_le _) (by omega), ?_⟩
    rw [key, h2]
    rfl

theorem nonce_range {n : ℕ} (h : 2 < n) (b : ℕ) (key : Bytes) (i : ℕ) : 0 < nonce n b key i ∧ nonce n b key i < n := by
  have := Nat.mod_lt (beNat (nonceBytes key b i)) (show n - 1 > 0 by omega)
  unfold nonce
  omega

/-- C53 and C67: the same for a curve object that computes all multiples of the base point correctly. -/
theorem C67_sign (L : LawfulDigest dg H bs size Abs Chk) (hsz : 0 < size) (g : Rng σ) (fuel : ℕ) (o : ECDSA.Obj σ S C) (ho : GoodObj Abs Chk o)
    {G : Point p (E.curveParams o.curve).b} (hS : Setting (E.curveParams o.curve) p n G) (hE : BaseOk E o.curve n) (pk : Elliptic.PublicKey) (d : ℕ)
    (hk : o.kp = .pri ⟨pk, some (d : ℤ)⟩) (old : DSA.SigContent) (msg : Bytes) (hm : msg.length < 2 ^ 64)
    (hl : (natBytes d).length + size < 2 ^ 63) :
    let b := (E.curveParams o.curve).bitSize / 8 + 8
    let len := min 32 (((E.curveParams o.curve).bitSize + 7) / 16)
    let drawn := drawWords g (max 1 ((len + 3) / 4)) o.rd
    let k := nonce n b (nonceKey (natBytes d) (drawn.1.take len) (H msg))
    (∃ (o' : ECDSA.Obj σ S C) (i r s : ℕ), i < fuel ∧ IsSignature G n d (hashNumber n (H msg)) (k i) r s ∧
        (∀ j < i, ¬ ∃ r s, IsSignature G n d (hashNumber n (H msg)) (k j) r s) ∧
        ECDSA.sign g E fuel dg o old msg = .ok (o', old.set r s) ∧ o'.kp = o.kp ∧ o'.curve = o.curve ∧ o'.rd = drawn.2 ∧ GoodObj Abs Chk o') ∨
      ((∀ j < fuel, ¬ ∃ r s, IsSignature G n d (hashNumber n (H msg)) (k j) r s) ∧ ECDSA.sign g E fuel dg o old msg = .error .diverge) := by
  intro b len drawn k
  refine C67_sign_at L hsz g fuel o ho hS pk d hk old msg hm hl (fun i _ => ?_)
  obtain ⟨h0, h1⟩ := nonce_range hS.two_lt b (nonceKey (natBytes d) (drawn.1.take len) (H msg)) i
  rw [hE _ h0 h1]

/-- C53: whatever `sign` returns is a signature as in FIPS 186-4, with a per-message secret in `1..n-1`. -/
theorem C53_sign (L : LawfulDigest dg H bs size Abs Chk) (hsz : 0 < size) (g : Rng σ) (fuel : ℕ) (o o' : ECDSA.Obj σ S C) (ho : GoodObj Abs Chk o)
    {G : Point p (E.curveParams o.curve).b} (hS : Setting (E.curveParams o.curve) p n G) (hE : BaseOk E o.curve n) (pk : Elliptic.PublicKey) (d : ℕ)
    (hk : o.kp = .pri ⟨pk, some (d : ℤ)⟩) (old c : DSA.SigContent) (msg : Bytes) (hm : msg.length < 2 ^ 64)
    (hl : (natBytes d).length + size < 2 ^ 63) (h : ECDSA.sign g E fuel dg o old msg = .ok (o', c)) :
    o'.kp = o.kp ∧ o'.curve = o.curve ∧ GoodObj Abs Chk o' ∧ ∃ r s k, c.toBigint = .ok (some r, some s) ∧
      IsSignature G n d (hashNumber n (H msg)) k r s := by
  rcases C67_sign L hsz g fuel o ho hS hE pk d hk old msg hm hl with ⟨o2, i, r, s, -, h2, -, h4, h5, h6, -, h7⟩ | ⟨-, h2⟩
  · rw [h] at h4
    simp only [Except.ok.injEq, Prod.mk.injEq] at h4
    obtain ⟨rfl, rfl⟩ := h4
    exact ⟨h5, h6, h7, r, s, _, (C51_roundtrip r s h2.r_pos h2.s_pos old).1, h2⟩
  · rw [h] at h2
    cases h2

/-- C53: `verify` accepts exactly the signatures FIPS 186-4 accepts, for the public point `d • G`, and otherwise reports a failed verification. -/
theorem C53_verify_exact (L : LawfulDigest dg H bs size Abs Chk) (hsz : 0 < size) (o : ECDSA.Obj σ S C) (ho : GoodObj Abs Chk o)
    {G : Point p (E.curveParams o.curve).b} (hS : Setting (E.curveParams o.curve) p n G) (qx qy : ℤ) (d : ℕ) (hk : o.kp.publicKey = ⟨some qx, some qy⟩)
    (hQ : Encodes p (E.curveParams o.curve).b qx qy (d • G)) (c : DSA.SigContent) (msg : Bytes) (hm : msg.length < 2 ^ 64) (r s : ℕ)
    (hc : c.toBigint = .ok (some r, some s)) :
    (Accepts G (d • G) n (hashNumber n (H msg)) r s →
      ∃ o', ECDSA.verify E dg o c msg = .ok o' ∧ o'.kp = o.kp ∧ o'.curve = o.curve ∧ GoodObj Abs Chk o') ∧
    (¬ Accepts G (d • G) n (hashNumber n (H msg)) r s → ECDSA.verify E dg o c msg = .error (.err .verificationFailed)) := by
  obtain ⟨⟨x, hx⟩, hmd, hby⟩ := ho
  obtain ⟨hf', e, hc'⟩ := hashParts_ok L hx [msg] (by simpa using hm)
  rw [show [msg].flatten = msg by simp] at e hc'
  have hH : H msg ≠ [] := by
    intro h0
    have := L.length msg
    rw [h0] at this
    simp at this
    omega
  obtain ⟨h1, h2⟩ := ECDSA.verifyInner_eq { o with hf := hf', hashBuf := H msg } rfl hS qx qy d hk hQ hH r s
  constructor
  · intro h
    have h3 := h1 h
    refine ⟨{ o with hf := hf', hashBuf := H msg }, ?_, rfl, rfl, ⟨_, Or.inr hc'⟩, hmd, hby⟩
    unfold ECDSA.verify
    simp only [bind, Except.bind, e, hc]
    rw [h3]
  · intro h
    have h3 := h2 h
    unfold ECDSA.verify
    simp only [bind, Except.bind, e, hc]
    rw [h3]

/-- C53: a container that does not hold two numbers is rejected (if cutting it up does not panic, see C51). -/
theorem C53_verify_nan (L : LawfulDigest dg H bs size Abs Chk) (o : ECDSA.Obj σ S C) (ho : GoodObj Abs Chk o) (c : DSA.SigContent) (msg : Bytes)
    (hm : msg.length < 2 ^ 64) (t : Option ℕ × Option ℕ) (hc : c.toBigint = .ok t) (hn : t.1 = none ∨ t.2 = none) :
    ECDSA.verify E dg o c msg = .error (.err .verificationFailed) := by
  obtain ⟨⟨x, hx⟩, hmd, hby⟩ := ho
  obtain ⟨hf', e, hc'⟩ := hashParts_ok L hx [msg] (by simpa using hm)
  unfold ECDSA.verify
  simp only [bind, Except.bind, e, hc]
  obtain ⟨r, s⟩ := t
  unfold ECDSA.verifyInner
  rcases hn with h | h
  · dsimp only at h
    subst h
    rfl
  · dsimp only at h
    subst h
    cases r <;> rfl

/-- C53: `verify` accepts every signature that `sign` made with the matching key, for every message, hash function, curve implementation and random
source. -/
theorem C53_genuine (L : LawfulDigest dg H bs size Abs Chk) (hsz : 0 < size) (g : Rng σ) (fuel : ℕ) (o o' v : ECDSA.Obj σ S C) (ho : GoodObj Abs Chk o)
    (hv : GoodObj Abs Chk v) (hcv : v.curve = o.curve)
    {G : Point p (E.curveParams o.curve).b} (hS : Setting (E.curveParams o.curve) p n G) (hE : BaseOk E o.curve n) (qx qy : ℤ) (d : ℕ)
    (hk : o.kp = .pri ⟨⟨some qx, some qy⟩, some (d : ℤ)⟩) (hQ : Encodes p (E.curveParams o.curve).b qx qy (d • G))
    (hvk : v.kp.publicKey = o.kp.publicKey) (old c : DSA.SigContent) (msg : Bytes) (hm : msg.length < 2 ^ 64)
    (hl : (natBytes d).length + size < 2 ^ 63) (h : ECDSA.sign g E fuel dg o old msg = .ok (o', c)) :
    ∃ v', ECDSA.verify E dg v c msg = .ok v' ∧ v'.kp = v.kp ∧ v'.curve = v.curve ∧ GoodObj Abs Chk v' := by
  obtain ⟨-, -, -, r, s, k, h1, h2⟩ := C53_sign L hsz g fuel o o' ho hS hE _ d hk old c msg hm hl h
  obtain ⟨cv', hf', rd', kp', md', db', hb'⟩ := v
  dsimp only at hcv hvk
  subst hcv
  exact (C53_verify_exact L hsz ⟨o.curve, hf', rd', kp', md', db', hb'⟩ hv hS qx qy d (by rw [hvk, hk]; rfl) hQ c msg hm r s h1).1
    (ECDSA.accepts_of hS h2)

/-- C53: without a secret `sign` reports an error and does nothing else. -/
theorem C53_public (L : LawfulDigest dg H bs size Abs Chk) (g : Rng σ) (fuel : ℕ) (o : ECDSA.Obj σ S C) (ho : GoodObj Abs Chk o)
    (hk : o.kp.privateKey = none) (old : DSA.SigContent) (msg : Bytes) (hm : msg.length < 2 ^ 64) :
    ECDSA.sign g E fuel dg o old msg = .error (.err .invalidPrivateKey) := by
  obtain ⟨⟨x, hx⟩, hmd, hby⟩ := ho
  obtain ⟨hf', e, hc'⟩ := hashParts_ok L hx [msg] (by simpa using hm)
  unfold ECDSA.sign ECDSA.signInner
  simp only [bind, Except.bind, e, hk]

/-! ## C54 -/

/-- C54: `rand_field_element` gives a number in `1..n-1` for every random source and state. -/
theorem C54_field_element (g : Rng σ) (c : CurveParams) (hn : 2 ≤ c.n) (s : σ) :
    1 ≤ (ECDSA.randFieldElement g c s).1 ∧ (ECDSA.randFieldElement g c s).1 < c.n := by
  unfold ECDSA.randFieldElement ECDSA.randFieldElementInner
  dsimp only
  have h1 := Int.emod_nonneg ((beNat ((drawWords g ((c.bitSize >>> 3 + 8 + 3) >>> 2) s).1.take (c.bitSize >>> 3 + 8)) : ℕ) : ℤ) (show c.n - 1 ≠ 0 by omega)
  have h2 := Int.emod_lt_of_pos ((beNat ((drawWords g ((c.bitSize >>> 3 + 8 + 3) >>> 2) s).1.take (c.bitSize >>> 3 + 8)) : ℕ) : ℤ) (show 0 < c.n - 1 by omega)
  constructor <;> omega

/-- C54: every number in `1..n-1` is the secret of some random stream (the map is onto), if the draw is at least as long as `n`. -/
theorem C54_field_element_onto (c : CurveParams) (hb : c.n ≤ 2 ^ (8 * (c.bitSize / 8 + 8))) (k : ℕ) (h1 : 1 ≤ k) (h2 : (k : ℤ) < c.n) :
    ∃ buf : Bytes, buf.length = c.bitSize / 8 + 8 ∧ ECDSA.randFieldElementInner c buf = k := by
  refine ⟨Spec.toBE (c.bitSize / 8 + 8) (k - 1), Spec.length_toBE _ _, ?_⟩
  unfold ECDSA.randFieldElementInner
  dsimp only
  have : k - 1 < 256 ^ (c.bitSize / 8 + 8) := by
    have h3 : (k : ℤ) < ((256 ^ (c.bitSize / 8 + 8) : ℕ) : ℤ) := by
      push_cast
      rw [show (256 : ℤ) = 2 ^ 8 by norm_num, ← pow_mul]
      omega
    have : k < 256 ^ (c.bitSize / 8 + 8) := by exact_mod_cast h3
    omega
  rw [Spec.beNat_toBE, Nat.mod_eq_of_lt this, Int.emod_eq_of_lt (by omega) (by omega)]
  omega

/-- C54: `auto_generate_key` makes a key with a secret `d` in `1..n-1` and the public point `d • G`, which is not infinity. -/
theorem C54_auto_generate_key (g : Rng σ) (hf : S) (hh : GoodState Abs Chk hf) (rd : σ) (cv : C)
    {G : Point p (E.curveParams cv).b} (hS : Setting (E.curveParams cv) p n G) (hE : BaseOk E cv n) :
    ∃ (d : ℕ) (x y : ℤ), 1 ≤ d ∧ d < n ∧ (ECDSA.autoGenerateKey g E hf rd cv).kp = .pri ⟨⟨some x, some y⟩, some (d : ℤ)⟩ ∧
      Encodes p (E.curveParams cv).b x y (d • G) ∧ d • G ≠ 0 ∧ (ECDSA.autoGenerateKey g E hf rd cv).curve = cv ∧
      GoodObj Abs Chk (ECDSA.autoGenerateKey g E hf rd cv) := by
  have h2 := hS.two_lt
  obtain ⟨h3, h4⟩ := C54_field_element g (E.curveParams cv) (by rw [hS.n_eq]; exact_mod_cast hS.two_lt.le) rd
  rw [hS.n_eq] at h4
  have hd : (ECDSA.randFieldElement g (E.curveParams cv) rd).1 = ((ECDSA.randFieldElement g (E.curveParams cv) rd).1.toNat : ℤ) := by omega
  obtain ⟨x, y, e, hEnc, -⟩ := ECDSA.base_ok hS (ECDSA.randFieldElement g (E.curveParams cv) rd).1.toNat
  rw [← hE _ (by omega) (by omega)] at e
  refine ⟨_, x, y, by omega, by omega, ?_, hEnc, ?_, rfl, C53_new hf hh _ _ _⟩
  · show Elliptic.KeyPair.pri ⟨⟨(E.scalarBasePoint cv (some (ECDSA.randFieldElement g (E.curveParams cv) rd).1.natAbs)).1,
      (E.scalarBasePoint cv (some (ECDSA.randFieldElement g (E.curveParams cv) rd).1.natAbs)).2⟩, some (ECDSA.randFieldElement g (E.curveParams cv) rd).1⟩ = _
    rw [show (ECDSA.randFieldElement g (E.curveParams cv) rd).1.natAbs = (ECDSA.randFieldElement g (E.curveParams cv) rd).1.toNat by omega, e, ← hd]
  · intro h0
    have h5 := addOrderOf_dvd_of_nsmul_eq_zero h0
    rw [hS.order] at h5
    have := Nat.le_of_dvd (by omega) h5
    omega

end

/-! ## The named curves -/

theorem setting_of_good {c : CurveParams} (h : GoodCurve c) (h2 : 2 < c.n) :
    ∃ (p n : ℕ) (_ : Fact p.Prime) (G : Point p c.b), Setting c p n G := by
  obtain ⟨p, n, hpf, h1, h3, h4, h5, G, h6, h7⟩ := h
  exact ⟨p, n, hpf, G, h1, h3, h4, by rw [h3] at h2; exact_mod_cast h2, h5, h6, h7⟩

/-- C53 for P-224, P-256, P-384 and P-521 as generic curves, from key generation to verification: with a key made by `auto_generate_key`, any signature
`sign` returns is accepted by any good object that has the public key. The only restrictions are on lengths (messages below 2^64 bytes). -/
theorem C53_named {σ S : Type} {dg : Digest S} {H : Bytes → Bytes} {bs : Option Nat} {size : Nat} {Abs Chk : S → Bytes → Prop}
    (L : LawfulDigest dg H bs size Abs Chk) (hsz : 0 < size) (hsl : size < 2 ^ 32) (c : CurveParams)
    (hc : c ∈ [Elliptic.p224, Elliptic.p256, Elliptic.p384, Elliptic.p521])
    (g : Rng σ) (rd : σ) (hf : S) (hh : GoodState Abs Chk hf) (fuel : ℕ) (old sig : DSA.SigContent) (msg : Bytes) (hm : msg.length < 2 ^ 64)
    (o' v : ECDSA.Obj σ S CurveParams) (h : ECDSA.sign g Elliptic.generic fuel dg (ECDSA.autoGenerateKey g Elliptic.generic hf rd c) old msg = .ok (o', sig))
    (hv : GoodObj Abs Chk v) (hvc : v.curve = c) (hvk : v.kp.publicKey = (ECDSA.autoGenerateKey g Elliptic.generic hf rd c).kp.publicKey) :
    ∃ v', ECDSA.verify Elliptic.generic dg v sig msg = .ok v' := by
  have hg : GoodCurve c ∧ 2 < c.n ∧ c.n < 2 ^ 528 := by
    simp only [List.mem_cons, List.not_mem_nil, or_false] at hc
    rcases hc with rfl | rfl | rfl | rfl
    · exact ⟨C55_p224, by decide +kernel, by decide +kernel⟩
    · exact ⟨C55_p256, by decide +kernel, by decide +kernel⟩
    · exact ⟨C55_p384, by decide +kernel, by decide +kernel⟩
    · exact ⟨C55_p521, by decide +kernel, by decide +kernel⟩
  obtain ⟨hg, h2, h5⟩ := hg
  obtain ⟨p, n, hpf, G, hS⟩ := setting_of_good hg h2
  have hE : BaseOk Elliptic.generic c n := fun k _ _ => rfl
  obtain ⟨d, x, y, h3, h4, e, hEnc, -, hcv, hgo⟩ := C54_auto_generate_key (E := Elliptic.generic) (cv := c) g hf hh rd hS hE
  have hlen : (natBytes d).length + size < 2 ^ 63 := by
    have hd : d < 2 ^ 528 := by
      rw [hS.n_eq] at h5
      have : n < 2 ^ 528 := by exact_mod_cast h5
      omega
    have : (natBytes d).length ≤ 66 := length_natBytes_le (by rw [show (256 : ℕ) = 2 ^ 8 from rfl, ← pow_mul]; exact hd)
    omega
  obtain ⟨v', hv', -⟩ := C53_genuine (E := Elliptic.generic) L hsz g fuel (ECDSA.autoGenerateKey g Elliptic.generic hf rd c) o' v hgo hv hvc hS hE x y d e hEnc hvk old sig msg hm
    hlen h
  exact ⟨v', hv'⟩

/-! ## Non-vacuity -/

/-- An affine coordinate without an inversion. -/
theorem affine_x {p : ℕ} [hp : Fact p.Prime] {X Y Z x y x0 : ℤ} (h : Elliptic.affineFromJacobian p X Y Z = (some x, some y)) (hz : Z % p ≠ 0)
    (h0 : 0 ≤ x0) (h1 : x0 < p) (he : (x0 * (Z * Z) - X) % p = 0) (hX : 0 ≤ x ∧ x < p) : x = x0 := by
  have hpp := hp.out
  unfold Elliptic.affineFromJacobian at h
  rw [if_neg (by rintro rfl; exact hz (Int.zero_emod _))] at h
  cases hm : Elliptic.modInverse Z p with
  | none => rw [hm] at h; cases h
  | some w =>
    rw [hm] at h
    simp only [Prod.mk.injEq, Option.some.injEq] at h
    unfold Elliptic.modInverse at hm
    rw [Int.toNat_natCast] at hm
    cases hi : modInv (Z % (p : ℤ)).toNat p with
    | none => rw [hi] at hm; cases hm
    | some w' =>
      rw [hi] at hm
      have hw : w = w' := (Option.some.inj hm).symm
      have h2 := modInv_some hi
      have h3 : ((Z : ZMod p)) * (w : ZMod p) = 1 := by
        have h4 := (ZMod.natCast_eq_natCast_iff _ _ _).2 h2
        have h5 : (((Z % (p : ℤ)).toNat : ℕ) : ZMod p) = (Z : ZMod p) := by
          have : (((Z % (p : ℤ)).toNat : ℤ)) = Z % p := Int.toNat_of_nonneg (Int.emod_nonneg _ (by exact_mod_cast hpp.ne_zero))
          rw [← Int.cast_natCast, this, ZMod.intCast_mod]
        rw [Nat.cast_mul, h5, Nat.cast_one] at h4
        rw [hw, Int.cast_natCast]
        exact h4
      have h6 : (X : ZMod p) = (x0 : ZMod p) * ((Z : ZMod p) * Z) := by
        have := (ZMod.intCast_zmod_eq_zero_iff_dvd _ p).2 (Int.dvd_of_emod_eq_zero he)
        push_cast at this
        exact (sub_eq_zero.1 this).symm
      have h7 : (x : ZMod p) = (x0 : ZMod p) := by
        rw [← h.1, Elliptic.rem, ZMod.intCast_mod]
        push_cast
        rw [h6, show (x0 : ZMod p) * ((Z : ZMod p) * Z) * ((w : ZMod p) * w) = x0 * (Z * w) * (Z * w) by ring, h3, mul_one, mul_one]
      have h8 := (ZMod.intCast_eq_intCast_iff _ _ _).1 h7
      rw [Int.ModEq, Int.emod_eq_of_lt hX.1 hX.2, Int.emod_eq_of_lt h0 h1] at h8
      exact h8

/-- An object for P-256 with SHA-256 and the private key 1. -/
def demoECDSA := ECDSA.newUncheck (SHA2.new256 SHA2.init256) () Elliptic.p256 (.pri ⟨⟨some Elliptic.p256.gx, some Elliptic.p256.gy⟩, some ((1 : ℕ) : ℤ)⟩)

theorem natBytes_one : natBytes 1 = [1#8] := by simp [natBytes]

/-- The key for the secrets of the empty message. -/
def demoNonceKey : Bytes := [0xf3#8, 0x2d#8, 0x6c#8, 0xe9#8, 0x43#8, 0xe7#8, 0x90#8, 0xaf#8, 0xf1#8, 0xc#8, 0x9e#8, 0xe4#8, 0x7d#8, 0x70#8, 0x90#8, 0xe9#8, 0x53#8, 0x4d#8, 0x3#8, 0x24#8, 0xb1#8, 0x57#8, 0xe5#8, 0xb8#8, 0xe3#8, 0xb9#8, 0xc2#8, 0xd5#8, 0x10#8, 0x1f#8, 0x89#8, 0x7c#8]

/-- The first `b` bytes that the generator of secrets delivers. -/
def firstBytes (key : Bytes) (b : ℕ) : Res Bytes := do
  let rng ← ECDSA.CSPRng.new key ECDSA.aesIv
  let (_, b) ← rng.readFull b
  .ok b

theorem firstBytes_eq (key : Bytes) (b : ℕ) (h : key.length = 32) : firstBytes key b = .ok (nonceBytes key b 0) := by
  obtain ⟨rng, e3, hr⟩ := ECDSA.csprng_new h
  obtain ⟨rng', e4, -⟩ := ECDSA.readFull_ok hr b
  unfold firstBytes
  rw [e3]
  simp only [bind, Except.bind, e4]
  unfold nonceBytes
  rw [Nat.zero_mul]

theorem nonce_of {n b i : ℕ} {key B : Bytes} (h : nonceBytes key b i = B) : nonce n b key i = beNat B % (n - 1) + 1 := by rw [nonce, h]

theorem demo_key : nonceKey (natBytes 1) ((drawWords wordRng 4 ()).1.take 16) (Spec.SHA.sha256 []) = demoNonceKey := by
  have h := hash_of_run SHA2.law512 ⟨[], Or.inl (MD.abs_new SHA2.params512 (by decide) SHA2.init512)⟩
    ([1#8] ++ (drawWords wordRng 4 ()).1.take 16 ++ Spec.SHA.sha256 []) (demoNonceKey ++ [0xa5#8, 0x59#8, 0xca#8, 0x87#8, 0xbe#8, 0xe0#8, 0x1e#8, 0x21#8, 0xe8#8, 0x35#8, 0xbe#8, 0x47#8, 0xc8#8, 0x2f#8, 0xf9#8, 0x52#8, 0xb1#8, 0x25#8, 0x52#8, 0x76#8, 0x49#8, 0xa1#8, 0xaf#8, 0xf7#8, 0xc0#8, 0xbc#8, 0xb3#8, 0x87#8, 0x43#8, 0x38#8, 0xc0#8, 0x41#8]) (by rw [sha256_nil]; decide)
    (by rw [sha256_nil]; decide +kernel)
  unfold nonceKey
  rw [natBytes_one, h]
  decide

theorem demo_nonce : nonce 115792089210356248762697446949407573529996955224135760342422259061068512044369 40 (nonceKey (natBytes 1) ((drawWords wordRng 4 ()).1.take 16) (Spec.SHA.sha256 [])) 0 =
    19501523361569764127182526965615704673585315683850796854188136067825894987605 := by
  rw [demo_key]
  have hb := firstBytes_eq demoNonceKey 40 rfl
  have hv : firstBytes demoNonceKey 40 = .ok [0x37#8, 0x2e#8, 0x94#8, 0xa8#8, 0x31#8, 0x64#8, 0x43#8, 0xa2#8, 0xf9#8, 0xb9#8, 0x34#8, 0xf5#8, 0x69#8, 0xe0#8, 0x6d#8, 0x7d#8, 0xbd#8, 0x6c#8, 0x1f#8, 0x5f#8, 0xf6#8, 0x2c#8, 0x25#8, 0x6#8, 0x37#8, 0x70#8, 0x21#8, 0x9#8, 0x68#8, 0x16#8, 0x61#8, 0x8c#8, 0xe0#8, 0xf3#8, 0x2b#8, 0xb4#8, 0x1f#8, 0x2c#8, 0x5#8, 0xc4#8] := by
    unfold firstBytes demoNonceKey; decide +kernel
  rw [hb] at hv
  rw [nonce_of (Except.ok.inj hv)]
  decide +kernel

/-- The hypotheses of C53 are met: on P-256 the empty message is signed with the first secret, and the signature is accepted. -/
theorem C53_demo : ∃ o' c v', ECDSA.sign wordRng Elliptic.generic 1 SHA2.sha256 demoECDSA .new [] = .ok (o', c) ∧
    ECDSA.verify Elliptic.generic SHA2.sha256 demoECDSA c [] = .ok v' ∧
    ∃ s, 0 < s ∧ c = DSA.SigContent.formBigint 78537145824710306775404677570620104876738892918257760501233647430962192040503 s := by
  have hpf : Fact (Nat.Prime 115792089210356248762697446949407573530086143415290314195533631308867097853951) := ⟨CurvePrimes.prime_p256⟩
  obtain ⟨p', n', hpf', G, hS⟩ := setting_of_good C55_p256 (by decide +kernel)
  have hp' : p' = 115792089210356248762697446949407573530086143415290314195533631308867097853951 := by
    exact Int.ofNat.inj (hS.p_eq.symm)
  have hn' : n' = 115792089210356248762697446949407573529996955224135760342422259061068512044369 := by
    exact Int.ofNat.inj (hS.n_eq.symm)
  subst hp' hn'
  have hE : BaseOk Elliptic.generic Elliptic.p256 115792089210356248762697446949407573529996955224135760342422259061068512044369 := fun k _ _ => rfl
  have hg : GoodObj (MD.Abs SHA2.params256 SHA2.init256) (MD.Chk (fun q => (SHA2.out256 q).take 32) Spec.SHA.sha256) demoECDSA := C53_new _ good256 _ _ _
  have hl : (natBytes 1).length + 32 < 2 ^ 63 := by rw [natBytes_one]; decide
  obtain ⟨x, y, e, hEnc, hR⟩ := Elliptic.scalarInner_ok hS.valid hS.base (Spec.toBE 32 19501523361569764127182526965615704673585315683850796854188136067825894987605)
  have hbn : beNat (Spec.toBE 32 19501523361569764127182526965615704673585315683850796854188136067825894987605) = 19501523361569764127182526965615704673585315683850796854188136067825894987605 := by decide +kernel
  rw [hbn] at hEnc
  have hx : x = 78537145824710306775404677570620104876738892918257760501233647430962192040503 := by
    rw [Elliptic.scalarInner_run] at e
    refine affine_x e ?_ (by decide) (by decide) ?_ ⟨hR.1, hR.2.1⟩
    · decide +kernel
    · decide +kernel
  have hsig : IsSignature G 115792089210356248762697446949407573529996955224135760342422259061068512044369 1 (hashNumber 115792089210356248762697446949407573529996955224135760342422259061068512044369 (Spec.SHA.sha256 []))
      (nonce 115792089210356248762697446949407573529996955224135760342422259061068512044369 40 (nonceKey (natBytes 1) ((drawWords wordRng 4 ()).1.take 16) (Spec.SHA.sha256 [])) 0)
      78537145824710306775404677570620104876738892918257760501233647430962192040503 63256543348581330364066722827085679658060752723643065872472787239243392429899 := by
    rw [demo_nonce, sha256_nil]
    refine ⟨by decide, by decide, by decide, by decide, by decide, ⟨78537145824710306775404677570620104876738892918257760501233647430962192040503, ?_, by decide⟩, ?_⟩
    · rcases ECDSA.xNumber_of hEnc hR with ⟨-, h0, -⟩ | h0
      · rw [hx] at h0
        exact absurd h0 (by decide)
      · rw [h0, hx]
        rfl
    · decide +kernel
  have hs : ∃ o' c, ECDSA.sign wordRng Elliptic.generic 1 SHA2.sha256 demoECDSA .new [] = .ok (o', c) ∧
      ∃ s, 0 < s ∧ c = DSA.SigContent.formBigint 78537145824710306775404677570620104876738892918257760501233647430962192040503 s := by
    rcases C67_sign SHA2.law256 (by decide) wordRng 1 demoECDSA hg hS hE _ 1 rfl .new [] (by decide) hl with ⟨o', i, r, s, hi, h2, -, h, -⟩ | ⟨h, -⟩
    · refine ⟨o', _, h, s, h2.s_pos, ?_⟩
      obtain rfl : i = 0 := by omega
      obtain ⟨x1, e1, e2⟩ := h2.r_eq
      obtain ⟨x2, e3, e4⟩ := hsig.r_eq
      have e5 : x1 = x2 := Option.some.inj (e1.symm.trans e3)
      rw [e2, e5, ← e4]
      rfl
    · exact absurd ⟨_, _, hsig⟩ (h 0 (by decide))
  obtain ⟨o', c, h, hc⟩ := hs
  obtain ⟨v', hv, -⟩ := C53_genuine SHA2.law256 (by decide) wordRng 1 demoECDSA o' demoECDSA hg hg rfl hS hE _ _ 1 rfl
    (by have h1 := one_nsmul G; have h2 := hS.base; rw [← h1] at h2; exact h2) rfl .new c [] (by decide) hl h
  exact ⟨o', c, v', h, hv, hc⟩

end Verif.Props
