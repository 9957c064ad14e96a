import Verif.Props.RSA
import Verif.Props.OAEP
import Verif.Props.PSS
import Verif.Proof.Primality

/-! Property C120: objects that generate their own key work -/

namespace Verif.Props
open Verif.Model Verif.Model.RSA Verif.Spec.RSA
open Verif.Spec.PKCS1 (digestInfo)
open Verif.Model.PKCS1 (checkHash)

/-! ## Generating keys never panics -/

theorem genPrimes_no_panic {σ : Type} {g : Rng σ} (hg : GoodPrimes g) (k c : Nat) (s : σ) : genPrimes g k c s ≠ .error .panic := by
  induction k generalizing c s with
  | zero => intro h; cases h
  | succ k ih =>
    rw [genPrimes]
    rcases hp : g.prime (c / (k + 1)) s with ⟨_ | p, s'⟩
    · intro h; cases h
    · simp only
      have h1 := hg (c / (k + 1)) s p (by rw [hp])
      have h2 : bitsLen p ≤ c / (k + 1) := Nat.size_le.2 h1.2.2.2
      have h3 : c / (k + 1) ≤ c := Nat.div_le_self _ _
      rw [if_neg (by omega)]
      intro h
      cases hr : genPrimes g k (c - bitsLen p) s' with
      | error e =>
        rw [hr] at h
        simp only [bind, Except.bind, Except.error.injEq] at h
        exact ih _ _ (h ▸ hr)
      | ok r => rw [hr] at h; cases h

theorem genLoop_no_panic {σ : Type} {g : Rng σ} (hg : GoodPrimes g) (k bits fuel : Nat) (s : σ) : genLoop g k bits fuel s ≠ .error .panic := by
  induction fuel generalizing s with
  | zero => intro h; cases h
  | succ fuel ih =>
    rw [genLoop]
    cases hr : genPrimes g k (if k ≥ 7 then bits + (k - 2) / 5 else bits) s with
    | error e =>
      simp only [bind, Except.bind]
      intro h
      rw [Except.error.injEq] at h
      exact genPrimes_no_panic hg _ _ _ (h ▸ hr)
    | ok r =>
      obtain ⟨ps, s'⟩ := r
      simp only [bind, Except.bind]
      split
      · exact ih _
      · split
        · exact ih _
        · split
          · intro h; cases h
          · exact ih _

theorem generate_no_panic {σ : Type} {g : Rng σ} (hg : GoodPrimes g) (fuel : Nat) (tooFew : Bool) (bits : Nat) (s : σ) :
    generateKey g fuel tooFew bits s ≠ .error .panic := by
  unfold generateKey generateMultiPrimeKey
  rw [if_neg (by decide)]
  split
  · intro h; cases h
  · cases hr : genLoop g 2 bits fuel s with
    | error e =>
      simp only [bind, Except.bind]
      intro h
      rw [Except.error.injEq] at h
      exact genLoop_no_panic hg _ _ _ _ (h ▸ hr)
    | ok r =>
      obtain ⟨d, n, ps, s'⟩ := r
      obtain ⟨p, q, rfl⟩ := List.length_eq_two.1 (genLoop_ok hr).1
      simp only [bind, Except.bind]
      intro h; cases h

/-- What a generated key is good for. -/
theorem generated {σ : Type} {g : Rng σ} (hg : GoodPrimes g) {fuel : Nat} {tooFew : Bool} {bits : Nat} {s s' : σ} {sk : RSA.PrivateKey}
    (h : generateKey g fuel tooFew bits s = .ok (sk, s')) :
    ValidKey sk.pk.n sk.pk.e sk.d sk.primes ∧ Computed sk ∧ sk.pk.isValid = .ok () ∧ bitsLen sk.pk.n = bits ∧ sk.pk.modulusLen = (bits + 7) / 8 := by
  obtain ⟨-, -, -, -, hv⟩ := C42_two_primes g hg fuel tooFew bits s s' sk h
  obtain ⟨-, -, -, -, -, h6, h7, -, h9, -⟩ := C42_generated_partial g hg fuel tooFew 2 bits s s' sk h
  refine ⟨hv, h9, ?_, h6, ?_⟩
  · unfold PublicKey.isValid
    rw [h7]; rfl
  · rw [PublicKey.modulusLen, show bitsLen sk.pk.n = bits from h6, Nat.shiftRight_eq_div_pow]

section
variable {σ S : Type} {d : Digest S} {H : Bytes → Bytes} {bs : Option Nat} {size : Nat} {Abs Chk : S → Bytes → Prop}

/-! ## RSAES-PKCS1-v1_5 and RSASSA-PKCS1-v1_5 -/

/-- C120: what `auto_generate_key` returns: it refuses `11 + hLen` bits and less at once and then, after a key has been generated, everything up to 88 bits; otherwise it
returns an object with the generated key. -/
theorem C120_pkcs1_exact (L : LawfulDigest d H bs size Abs Chk) {g : Rng σ} (hg : GoodPrimes g) (fuel : Nat) (tooFew : Bool) (bits : Nat) (ty : PKCS1.HashTy) (hf : S)
    (hh : GoodState Abs Chk hf) (rd : σ) (bl : Bool) :
    PKCS1.autoGenerateKey g fuel tooFew d bits ty hf rd bl =
      if bits ≤ 11 + size then .error (.err .invalidParameter)
      else match generateKey g fuel tooFew bits rd with
        | .error e => .error e
        | .ok (sk, rd') => if bits ≤ 88 then .error (.err .invalidParameter) else .ok ⟨.pri sk, rd', hf, bl, ty⟩ := by
  obtain ⟨x, hx⟩ := hh
  have hc : checkHash ty = .ok () := by cases ty <;> rfl
  unfold PKCS1.autoGenerateKey
  rw [hc, hLen_eq L hx]
  simp only [bind, Except.bind]
  split
  · rfl
  · cases hr : generateKey g fuel tooFew bits rd with
    | error e => rfl
    | ok r =>
      obtain ⟨sk, rd'⟩ := r
      have hl := (generated hg hr).2.2.2.2
      simp only [PKCS1.newUncheck, hc, bind, Except.bind]
      show (if sk.pk.modulusLen ≤ 11 then _ else _) = _
      rw [hl]
      by_cases hb : bits ≤ 88
      · rw [if_pos hb, if_pos (by omega)]
      · rw [if_neg hb, if_neg (by omega)]

/-- C120: an object that generated its key works together with every object made from its public key: the other's ciphertexts of non-empty messages are decrypted, and if the
modulus has room for the hash, every message can be signed and the other accepts the signature. -/
theorem C120_pkcs1 (L : LawfulDigest d H bs size Abs Chk) {g : Rng σ} (hg : GoodPrimes g) (fuel : Nat) (tooFew : Bool) (bits : Nat) (ty : PKCS1.HashTy) (hf hf2 : S)
    (hh : GoodState Abs Chk hf) (hh2 : GoodState Abs Chk hf2) (rd rd2 : σ) (bl bl2 : Bool) (o : PKCS1.Obj σ S)
    (h : PKCS1.autoGenerateKey g fuel tooFew d bits ty hf rd bl = .ok o) (f2 : Nat) (hu : bl = true → Usable g o.kp.publicKey.n f2 o.rd) :
    ∃ peer : PKCS1.Obj σ S, PKCS1.new ty hf2 rd2 (.pub o.kp.publicKey) bl2 = .ok peer ∧
      (∀ f1 msg a' c, msg ≠ [] → msg.length + 11 ≤ (bits + 7) / 8 → PKCS1.encrypt g f1 peer msg = .ok (a', c) → ∃ o', PKCS1.decrypt g f2 o c = .ok (o', msg)) ∧
      (∀ alg msg, algOf ty = some (alg, size) → msg.length < 2 ^ 64 → (digestInfo alg (H msg)).length + 11 ≤ (bits + 7) / 8 →
        ∃ o' sig v', PKCS1.sign g f2 d o msg = .ok (o', sig) ∧ PKCS1.verify d peer sig msg = .ok v') := by
  have hc : checkHash ty = .ok () := by cases ty <;> rfl
  rw [C120_pkcs1_exact L hg fuel tooFew bits ty hf hh rd bl] at h
  split at h
  · cases h
  · cases hr : generateKey g fuel tooFew bits rd with
    | error e => rw [hr] at h; cases h
    | ok r =>
      obtain ⟨sk, rd'⟩ := r
      rw [hr] at h
      simp only at h
      split at h
      · cases h
      · next hb =>
        simp only [Except.ok.injEq] at h
        subst h
        obtain ⟨hv, hk, hi, -, hl⟩ := generated hg hr
        refine ⟨⟨.pub sk.pk, rd2, hf2, bl2, ty⟩, ?_, ?_, ?_⟩
        · show PKCS1.new ty hf2 rd2 (.pub sk.pk) bl2 = _
          simp only [PKCS1.new, PKCS1.newUncheck, PKCS1.checkKey, hc, hi, bind, Except.bind]
          show (if sk.pk.modulusLen ≤ 11 then _ else _) = _
          rw [if_neg (by rw [hl]; omega)]
        · intro f1 msg a' c h0 hm he
          obtain ⟨-, -, b', h1, -⟩ := C43_roundtrip_partial g f1 f2 sk hv hk hi _ (⟨.pri sk, rd', hf, bl, ty⟩ : PKCS1.Obj σ S) a' rfl rfl hu msg c h0
            (by rw [hl]; omega) (by rw [hl]; omega) he
          exact ⟨b', h1⟩
        · intro alg msg ha hm hd
          obtain ⟨o', h1, -⟩ := C46_sign L g f2 sk hv hk (⟨.pri sk, rd', hf, bl, ty⟩ : PKCS1.Obj σ S) rfl hh hu alg ha msg hm (by rw [hl]; exact hd)
          obtain ⟨-, v', h2⟩ := C46_genuine L g f2 sk hv hk (⟨.pri sk, rd', hf, bl, ty⟩ : PKCS1.Obj σ S) o' (⟨.pub sk.pk, rd2, hf2, bl2, ty⟩ : PKCS1.Obj σ S) rfl hh rfl hh2 rfl alg ha msg _ hm
            (by rw [hl]; exact hd) h1
          exact ⟨o', _, v', h1, h2⟩

/-! ## RSAES-OAEP -/

/-- C120: an object that generated its key for RSAES-OAEP decrypts what any object made from its public key with the same label encrypts: every message of up to
`k - 2 hLen - 2` bytes. -/
theorem C120_oaep (L : LawfulDigest d H bs size Abs Chk) (hs : 0 < size) {g : Rng σ} (hg : GoodPrimes g) (fuel : Nat) (tooFew : Bool) (bits : Nat) (hb : bits < 2 ^ 64)
    (hf hf2 : S) (hh : GoodState Abs Chk hf) (hh2 : GoodState Abs Chk hf2) (rd rd2 : σ) (label : Bytes) (hlab : label.length < 2 ^ 64) (bl bl2 : Bool) (o : OAEP.Obj σ S)
    (h : OAEP.autoGenerateKey g fuel tooFew d bits hf rd label bl = .ok o) (f2 : Nat) (hu : bl = true → Usable g o.kp.publicKey.n f2 o.rd) :
    ∃ peer : OAEP.Obj σ S, OAEP.new d hf2 rd2 (.pub o.kp.publicKey) label bl2 = .ok peer ∧
      ∀ msg : Bytes, msg.length + 2 * size + 2 ≤ (bits + 7) / 8 →
        ∃ a' c o', OAEP.encrypt g d peer msg = .ok (a', c) ∧ OAEP.decrypt g f2 d o c = .ok (o', msg) := by
  obtain ⟨x, hx⟩ := hh
  obtain ⟨y, hy⟩ := hh2
  unfold OAEP.autoGenerateKey at h
  split at h
  · cases h
  · cases hr : generateKey g fuel tooFew bits rd with
    | error e => rw [hr] at h; cases h
    | ok r =>
      obtain ⟨sk, rd'⟩ := r
      rw [hr] at h
      simp only [bind, Except.bind, OAEP.newUncheck] at h
      split at h
      · cases h
      · next hc =>
        simp only [Except.ok.injEq] at h
        subst h
        obtain ⟨hv, hk, hi, -, hl⟩ := generated hg hr
        have hc' : ¬ sk.pk.modulusLen ≤ (size <<< 1) + 2 := by rw [hLen_eq L hx] at hc; exact hc
        refine ⟨⟨.pub sk.pk, hf2, rd2, label, bl2⟩, ?_, ?_⟩
        · show OAEP.new d hf2 rd2 (.pub sk.pk) label bl2 = _
          simp only [OAEP.new, OAEP.newUncheck, PKCS1.checkKey, hi, bind, Except.bind, hLen_eq L hy]
          exact if_neg hc'
        · intro msg hm
          obtain ⟨a', c, b', h1, -, h2⟩ := C44_roundtrip L hs g f2 sk hv hk hi (⟨.pub sk.pk, hf2, rd2, label, bl2⟩ : OAEP.Obj σ S) ⟨.pri sk, hf, rd', label, bl⟩ rfl rfl
            ⟨y, hy⟩ ⟨x, hx⟩ rfl hlab hu (by rw [hl]; omega) msg (by rw [hl]; exact hm)
          exact ⟨a', c, b', h1, h2⟩

/-! ## RSASSA-PSS -/

/-- What `auto_generate_key` of RSASSA-PSS returns. -/
theorem pss_auto (L : LawfulDigest d H bs size Abs Chk) (hs : 0 < size) {g : Rng σ} (hg : GoodPrimes g) {fuel : Nat} {tooFew : Bool} {bits : Nat} {hf : S}
    (hh : GoodState Abs Chk hf) {rd : σ} {saltLen : Option Nat} {bl : Bool} {o : PSS.Obj σ S}
    (h : PSS.autoGenerateKey g fuel tooFew d bits hf rd saltLen bl = .ok o) :
    ∃ sk rd', generateKey g fuel tooFew bits rd = .ok (sk, rd') ∧ o = ⟨.pri sk, PSS.computeSaltLen saltLen size bits, hf, rd', bl⟩ ∧
      size + PSS.computeSaltLen saltLen size bits + 2 ≤ (bits - 1 + 7) / 8 ∧ 0 < bits := by
  obtain ⟨x, hx⟩ := hh
  unfold PSS.autoGenerateKey at h
  split at h
  · cases h
  · next hc =>
    rw [hLen_eq L hx, Nat.shiftRight_eq_div_pow] at hc
    cases hr : generateKey g fuel tooFew bits rd with
    | error e => rw [hr] at h; cases h
    | ok r =>
      obtain ⟨sk, rd'⟩ := r
      rw [hr] at h
      obtain ⟨-, -, -, hb, -⟩ := generated hg hr
      simp only [bind, Except.bind, PSS.newUncheck, hLen_eq L hx, KeyPair.publicKey, hb] at h
      split at h
      · cases h
      · simp only [Except.ok.injEq] at h
        refine ⟨sk, rd', rfl, ?_, by omega, by omega⟩
        rw [← h]
        congr 1
        generalize hz : PSS.computeSaltLen saltLen size bits = z
        by_cases h0 : 0 < z
        · exact if_pos h0
        · obtain rfl : z = 0 := by omega
          unfold PSS.computeSaltLen at hz ⊢
          cases saltLen with
          | none => simp only at hz; omega
          | some v =>
            simp only at hz
            split at hz
            · omega
            · simpa using hz

/-- C120: the salt has the length asked for, or the default, or the greatest one. -/
theorem C120_pss_salt (L : LawfulDigest d H bs size Abs Chk) (hs : 0 < size) {g : Rng σ} (hg : GoodPrimes g) (fuel : Nat) (tooFew : Bool) (bits : Nat) (hf : S)
    (hh : GoodState Abs Chk hf) (rd : σ) (saltLen : Option Nat) (bl : Bool) (o : PSS.Obj σ S)
    (h : PSS.autoGenerateKey g fuel tooFew d bits hf rd saltLen bl = .ok o) :
    (saltLen = none → o.slen = size) ∧ (∀ x, 0 < x → saltLen = some x → o.slen = x) ∧ (saltLen = some 0 → size + o.slen + 2 = (bits + 7) / 8) := by
  obtain ⟨sk, rd', -, rfl, h1, -⟩ := pss_auto L hs hg hh h
  refine ⟨fun e => by rw [e]; rfl, fun x hx e => by rw [e]; exact if_pos hx, fun e => ?_⟩
  rw [e] at h1 ⊢
  have e2 : PSS.computeSaltLen (some 0) size bits = (bits + 7) / 8 - (2 + size) := by
    unfold PSS.computeSaltLen
    rw [Nat.shiftRight_eq_div_pow]; rfl
  rw [e2] at h1 ⊢
  show size + ((bits + 7) / 8 - (2 + size)) + 2 = _
  omega

/-- C120: in a release build, with a modulus of a multiple of 512 bits, an object that generated its key for RSASSA-PSS signs every message, and every object made from its
public key accepts the signature. Missing: the other lengths and builds with overflow checks (`C120_pss_debug_refuted`, C48). -/
theorem C120_pss_partial (L : LawfulDigest d H bs size Abs Chk) (hs : 0 < size) (hsz : size + 4 < 2 ^ 64) {g : Rng σ} (hg : GoodPrimes g) (fuel : Nat) (tooFew : Bool)
    (bits : Nat) (hb : bits < 2 ^ 64) (h512 : bits % 512 = 0) (hf hf2 : S) (hh : GoodState Abs Chk hf) (hh2 : GoodState Abs Chk hf2) (rd rd2 : σ) (saltLen : Option Nat)
    (bl bl2 : Bool) (o : PSS.Obj σ S) (h : PSS.autoGenerateKey g fuel tooFew d bits hf rd saltLen bl = .ok o) (f2 : Nat)
    (hu : bl = true → Usable g o.kp.publicKey.n f2 (drawWords g ((o.slen + 3) / 4) o.rd).2) :
    ∃ peer : PSS.Obj σ S, PSS.new d hf2 rd2 (.pub o.kp.publicKey) saltLen bl2 = .ok peer ∧
      ∀ msg : Bytes, msg.length < 2 ^ 64 → ∃ o' sig v', PSS.sign false g f2 d o msg = .ok (o', sig) ∧ PSS.verify false d peer sig msg = .ok v' := by
  obtain ⟨y, hy⟩ := hh2
  obtain ⟨sk, rd', hr, rfl, h1, h0⟩ := pss_auto L hs hg hh h
  obtain ⟨hv, hk, hi, hbn, -⟩ := generated hg hr
  refine ⟨⟨.pub sk.pk, PSS.computeSaltLen saltLen size bits, hf2, rd2, bl2⟩, ?_, ?_⟩
  · show PSS.new d hf2 rd2 (.pub sk.pk) saltLen bl2 = _
    simp only [PSS.new, PSS.newUncheck, PKCS1.checkKey, hi, bind, Except.bind, hLen_eq L hy, KeyPair.publicKey, hbn]
    rw [if_neg (by rw [Nat.shiftRight_eq_div_pow]; omega)]
  · intro msg hm
    obtain ⟨o', h2, -⟩ := C48_sign L hs false g f2 sk hv hk (⟨.pri sk, PSS.computeSaltLen saltLen size bits, hf, rd', bl⟩ : PSS.Obj σ S) rfl hh hu msg hm
      (by rw [hbn]; exact hb) (by rw [hbn]; exact h1)
    obtain ⟨v', h3⟩ := C48_release_512 L hs hsz g f2 sk hv hk (⟨.pri sk, PSS.computeSaltLen saltLen size bits, hf, rd', bl⟩ : PSS.Obj σ S) o' (⟨.pub sk.pk, PSS.computeSaltLen saltLen size bits, hf2, rd2, bl2⟩ : PSS.Obj σ S) rfl hh rfl
      ⟨y, hy⟩ rfl msg _ hm (by rw [hbn]; exact hb) (by rw [hbn]; exact h1) (by rw [hbn]; exact h512) h2
    exact ⟨o', _, v', h2, h3⟩

/-- The wish refuted in a build with overflow checks: for every object that generated its key and every message it signed, verification panics. -/
theorem C120_pss_debug_refuted (L : LawfulDigest d H bs size Abs Chk) (hs : 0 < size) (hsz : size + 4 < 2 ^ 64) {g : Rng σ} (hg : GoodPrimes g) (fuel : Nat)
    (tooFew : Bool) (bits : Nat) (hb : bits < 2 ^ 64) (hf : S) (hh : GoodState Abs Chk hf) (rd : σ) (saltLen : Option Nat)
    (bl : Bool) (o o' v : PSS.Obj σ S) (h : PSS.autoGenerateKey g fuel tooFew d bits hf rd saltLen bl = .ok o) (f2 : Nat) (hvk : v.kp.publicKey = o.kp.publicKey)
    (hvl : v.slen = o.slen) (hvh : GoodState Abs Chk v.hf) (msg sig : Bytes) (hm : msg.length < 2 ^ 64) (hs2 : PSS.sign true g f2 d o msg = .ok (o', sig)) :
    PSS.verify true d v sig msg = .error .panic := by
  obtain ⟨sk, rd', hr, rfl, h1, h0⟩ := pss_auto L hs hg hh h
  obtain ⟨hv, hk, hi, hbn, -⟩ := generated hg hr
  exact C48_debug_refuted L hs hsz true g f2 sk hv hk ⟨.pri sk, PSS.computeSaltLen saltLen size bits, hf, rd', bl⟩ o' v rfl hh hvk hvh hvl msg sig hm (by rw [hbn]; exact hb) (by rw [hbn]; exact h1) hs2

/-- The wish for the greatest salt (`Some(0)`) refuted: with a modulus of one bit more than a number of bytes, `auto_generate_key` and `new` refuse it whatever the key, because the
length is computed from the bytes of the modulus and not from those of the encoded message; a salt one byte shorter is taken. -/
theorem C120_pss_max_salt_refuted (L : LawfulDigest d H bs size Abs Chk) (g : Rng σ) (fuel : Nat) (tooFew : Bool) (bits : Nat) (h1 : bits % 8 = 1) (hf : S)
    (hh : GoodState Abs Chk hf) (rd : σ) (bl : Bool) :
    PSS.autoGenerateKey g fuel tooFew d bits hf rd (some 0) bl = .error (.err .invalidParameter) ∧
    (∀ sk : RSA.PrivateKey, sk.isValid = .ok () → bitsLen sk.pk.n = bits → PSS.new d hf rd (.pri sk) (some 0) bl = .error (.err .invalidParameter) ∧
      (size + 3 < (bits + 7) / 8 → ∃ o, PSS.new d hf rd (.pri sk) (some ((bits + 7) / 8 - size - 3)) bl = .ok o)) := by
  obtain ⟨x, hx⟩ := hh
  have e2 : PSS.computeSaltLen (some 0) size bits = (bits + 7) / 8 - (2 + size) := by
    unfold PSS.computeSaltLen
    rw [Nat.shiftRight_eq_div_pow]; rfl
  refine ⟨?_, fun sk hi hb => ⟨?_, fun h3 => ?_⟩⟩
  · unfold PSS.autoGenerateKey
    rw [if_pos]
    rw [hLen_eq L hx, e2, Nat.shiftRight_eq_div_pow]; omega
  · simp only [PSS.new, PSS.newUncheck, PKCS1.checkKey, hi, bind, Except.bind, hLen_eq L hx, KeyPair.publicKey, hb, e2]
    rw [if_pos (by rw [Nat.shiftRight_eq_div_pow]; omega)]
  · have e3 : PSS.computeSaltLen (some ((bits + 7) / 8 - size - 3)) size bits = (bits + 7) / 8 - size - 3 := if_pos (by omega)
    simp only [PSS.new, PSS.newUncheck, PKCS1.checkKey, hi, bind, Except.bind, hLen_eq L hx, KeyPair.publicKey, hb, e3]
    rw [if_neg (by rw [Nat.shiftRight_eq_div_pow]; omega)]
    exact ⟨_, rfl⟩

/-- C120: none of the three panics while generating a key. -/
theorem C120_no_panic (L : LawfulDigest d H bs size Abs Chk) {g : Rng σ} (hg : GoodPrimes g) (fuel : Nat) (tooFew : Bool) (bits : Nat) (ty : PKCS1.HashTy) (hf : S)
    (hh : GoodState Abs Chk hf) (rd : σ) (label : Bytes) (saltLen : Option Nat) (bl : Bool) :
    PKCS1.autoGenerateKey g fuel tooFew d bits ty hf rd bl ≠ .error .panic ∧ OAEP.autoGenerateKey g fuel tooFew d bits hf rd label bl ≠ .error .panic ∧
      PSS.autoGenerateKey g fuel tooFew d bits hf rd saltLen bl ≠ .error .panic := by
  have hp := generate_no_panic hg fuel tooFew bits rd
  refine ⟨?_, ?_, ?_⟩
  · rw [C120_pkcs1_exact L hg fuel tooFew bits ty hf hh rd bl]
    split
    · intro h; cases h
    · split
      · next e he => intro h; rw [Except.error.injEq] at h; exact hp (h ▸ he)
      · split <;> (intro h; cases h)
  · unfold OAEP.autoGenerateKey
    split
    · intro h; cases h
    · cases he : generateKey g fuel tooFew bits rd with
      | error e => intro h; simp only [bind, Except.bind, Except.error.injEq] at h; exact hp (h ▸ he)
      | ok r =>
        simp only [bind, Except.bind, OAEP.newUncheck]
        split <;> (intro h; cases h)
  · unfold PSS.autoGenerateKey
    split
    · intro h; cases h
    · cases he : generateKey g fuel tooFew bits rd with
      | error e => intro h; simp only [bind, Except.bind, Except.error.injEq] at h; exact hp (h ▸ he)
      | ok r =>
        simp only [bind, Except.bind, PSS.newUncheck]
        split <;> (intro h; cases h)

end

/-! ## A source of primes -/

theorem prime_p48 : Nat.Prime 273436424157959 :=
  Primality.prime_of_check 273436424157959 29 48 [2, 67, 97, 139, 307, 599, 823] (by decide +kernel)
    (by simp only [List.forall_mem_cons, List.not_mem_nil, false_implies, implies_true, and_true]; norm_num)

theorem prime_q48 : Nat.Prime 245762374227523 :=
  Primality.prime_of_check 245762374227523 2 48 [2, 3, 59, 859, 877, 953, 967] (by decide +kernel)
    (by simp only [List.forall_mem_cons, List.not_mem_nil, false_implies, implies_true, and_true]; norm_num)

theorem prime_p256 : Nat.Prime 99824608557342663406042492649199078478507880620403782817660115186983250100639 :=
  Primality.prime_of_check 99824608557342663406042492649199078478507880620403782817660115186983250100639 3 256 [2, 3, 19, 41, 59, 61, 61, 61, 109, 149, 233, 283, 317, 331, 347, 353, 359, 359, 397, 431, 449, 457, 491, 541, 613, 659, 661, 677, 719, 887, 919, 937, 971] (by decide +kernel)
    (by simp only [List.forall_mem_cons, List.not_mem_nil, false_implies, implies_true, and_true]; norm_num)

theorem prime_q256 : Nat.Prime 114672936185500021515797780167221530563998537305618726098115000489431446317243 :=
  Primality.prime_of_check 114672936185500021515797780167221530563998537305618726098115000489431446317243 2 256 [2, 7, 29, 61, 71, 79, 107, 173, 181, 191, 223, 239, 293, 313, 401, 431, 439, 439, 491, 557, 577, 607, 619, 653, 691, 727, 751, 811, 823, 887, 919, 997] (by decide +kernel)
    (by simp only [List.forall_mem_cons, List.not_mem_nil, false_implies, implies_true, and_true]; norm_num)

/-- A source that keeps the contract and alternates between two primes of 48 or of 256 bits. -/
def pairRng : Rng Nat :=
  { word := fun s => (0x01000203#32, s), below := fun _ s => (2, s),
    prime := fun b s =>
      if b = 48 then (some (if s % 2 = 0 then 273436424157959 else 245762374227523), s + 1)
      else if b = 256 then (some (if s % 2 = 0 then 99824608557342663406042492649199078478507880620403782817660115186983250100639 else 114672936185500021515797780167221530563998537305618726098115000489431446317243), s + 1)
      else (none, s) }

theorem pairRng_good : GoodPrimes pairRng := by
  intro b s p h
  simp only [pairRng] at h
  split at h
  · next hb =>
    subst hb
    simp only [Option.some.injEq] at h
    split at h <;> subst h
    · exact ⟨prime_p48, by decide, by decide, by decide⟩
    · exact ⟨prime_q48, by decide, by decide, by decide⟩
  · split at h
    · next hb =>
      subst hb
      simp only [Option.some.injEq] at h
      split at h <;> subst h
      · exact ⟨prime_p256, by decide, by decide, by decide⟩
      · exact ⟨prime_q256, by decide, by decide, by decide⟩
    · cases h

/-- A pair of different primes makes a key in the first round. -/
theorem generate_pair {σ : Type} {g : Rng σ} {b p q : Nat} {s s1 s2 : σ} (hb : 32 ≤ b) (h1 : g.prime b s = (some p, s1)) (h2 : g.prime b s1 = (some q, s2))
    (hp : bitsLen p = b) (hq : bitsLen q = b) (hne : p ≠ q) (hn : bitsLen (p * q) = 2 * b) (hc : Nat.Coprime 65537 ((p - 1) * (q - 1))) :
    ∃ sk, generateKey g 1 false (2 * b) s = .ok (sk, s2) := by
  have e1 : genPrimes g 2 (2 * b) s = .ok ([p, q], s2) := by
    have d1 : 2 * b / (1 + 1) = b := by omega
    have d2 : (2 * b - b) / (0 + 1) = b := by omega
    simp [genPrimes, d1, d2, h1, h2, hp, hq, bind, Except.bind]
    rw [if_neg (by omega), if_neg (by omega)]
  obtain ⟨d, hd⟩ : ∃ d, modInv 65537 (([p, q] : List Nat).map (· - 1)).prod = some d := modInv_coprime (by simpa using hc)
  have e2 : dedup [p, q] = [p, q] := by simp [dedup, hne]
  have e4 : genLoop g 2 (2 * b) 1 s = .ok (d, ([p, q] : List Nat).prod, [p, q], s2) := by
    rw [genLoop, if_neg (by decide), e1]
    simp only [bind, Except.bind]
    rw [e2, if_neg (by simp), if_neg (by simp [hn]), hd]
  refine ⟨⟨⟨([p, q] : List Nat).prod, 65537⟩, d, [p, q], Precomputed.new p q d []⟩, ?_⟩
  unfold generateKey generateMultiPrimeKey
  rw [if_neg (by decide), if_neg (by simp), e4]
  rfl

theorem size_of (n b : Nat) (h1 : 2 ^ b ≤ n) (h2 : n < 2 ^ (b + 1)) : bitsLen n = b + 1 := Nat.le_antisymm (Nat.size_le.2 h2) (Nat.lt_size.2 h1)

theorem pair_96 : ∃ sk, generateKey pairRng 1 false 96 0 = .ok (sk, 2) :=
  generate_pair (b := 48) (by decide) (s1 := 1) (p := 273436424157959) (q := 245762374227523) rfl rfl (size_of _ 47 (by decide) (by decide)) (size_of _ 47 (by decide) (by decide))
    (by decide) (size_of _ 95 (by decide) (by decide)) (by norm_num)

theorem pair_512 : ∃ sk, generateKey pairRng 1 false 512 0 = .ok (sk, 2) :=
  generate_pair (b := 256) (by decide) (s1 := 1) (p := 99824608557342663406042492649199078478507880620403782817660115186983250100639) (q := 114672936185500021515797780167221530563998537305618726098115000489431446317243) rfl rfl (size_of _ 255 (by decide) (by decide)) (size_of _ 255 (by decide) (by decide))
    (by decide) (size_of _ 511 (by decide +kernel) (by decide +kernel)) (by norm_num)

theorem md5_fresh : GoodState (MD.Abs MD5.params MD5.init) (MD.Chk MD5.out Spec.MD5.hash) MD5.new := ⟨[], Or.inl (MD.abs_new MD5.params (by decide) MD5.init)⟩

/-- The wish that an object that generated its key can sign, refuted: the length asked for is compared with the bytes of the hash as if it were bytes itself, so
`auto_generate_key` returns objects whose modulus is too short for any signature. -/
theorem C120_pkcs1_too_short_refuted : GoodPrimes pairRng ∧ ∃ o : PKCS1.Obj Nat (MD.State MD5.Quad),
    PKCS1.autoGenerateKey pairRng 1 false MD5.digest 96 .md5 MD5.new 0 false = .ok o ∧
    ∀ fuel msg sig, PKCS1.sign pairRng fuel MD5.digest o msg = .error (.err .invalidPrivateKey) ∧
      PKCS1.verify MD5.digest o sig msg = .error (.err .verificationFailed) := by
  refine ⟨pairRng_good, ?_⟩
  obtain ⟨sk, hr⟩ := pair_96
  refine ⟨⟨.pri sk, 2, MD5.new, false, .md5⟩, ?_, fun fuel msg sig => ?_⟩
  · rw [C120_pkcs1_exact MD5.lawful pairRng_good 1 false 96 .md5 MD5.new md5_fresh 0 false, if_neg (by decide), hr]
    rfl
  · refine C46_short MD5.lawful pairRng fuel _ md5_fresh Spec.PKCS1.oidMD5 rfl sig msg ?_
    show sk.pk.modulusLen < _
    rw [(generated pairRng_good hr).2.2.2.2]
    have := MD5.lawful.length msg
    simp only [digestInfo, Spec.PKCS1.der, List.length_append, List.length_cons]
    omega

/-! ## The hypotheses are met -/

example : ∃ o : PKCS1.Obj Nat (MD.State MD5.Quad), PKCS1.autoGenerateKey pairRng 1 false MD5.digest 512 .md5 MD5.new 0 false = .ok o := by
  obtain ⟨sk, hr⟩ := pair_512
  rw [C120_pkcs1_exact MD5.lawful pairRng_good 1 false 512 .md5 MD5.new md5_fresh 0 false, if_neg (by decide), hr]
  exact ⟨_, rfl⟩

example : ∃ o : OAEP.Obj Nat (MD.State MD5.Quad), OAEP.autoGenerateKey pairRng 1 false MD5.digest 512 MD5.new 0 [1#8] true = .ok o ∧
    Usable pairRng o.kp.publicKey.n 1 o.rd := by
  obtain ⟨sk, hr⟩ := pair_512
  obtain ⟨hv, -, -, -, hl⟩ := generated pairRng_good hr
  refine ⟨⟨.pri sk, MD5.new, 2, [1#8], true⟩, ?_, Or.inr (Or.inl ?_)⟩
  · unfold OAEP.autoGenerateKey
    rw [if_neg (by decide), hr]
    show (if sk.pk.modulusLen ≤ 34 then _ else _) = _
    rw [if_neg (by rw [hl]; decide)]
  · show Nat.Coprime 2 sk.pk.n
    rw [hv.prod]
    exact Nat.coprime_list_prod_right_iff.2 fun p hp => (Nat.coprime_primes Nat.prime_two (hv.prime p hp)).2 (hv.odd p hp).symm

example : ∃ o : PSS.Obj Nat (MD.State MD5.Quad), PSS.autoGenerateKey pairRng 1 false MD5.digest 512 MD5.new 0 (some 0) false = .ok o ∧ o.slen = 46 := by
  obtain ⟨sk, hr⟩ := pair_512
  obtain ⟨-, -, -, hb, -⟩ := generated pairRng_good hr
  refine ⟨⟨.pri sk, 46, MD5.new, 2, false⟩, ?_, rfl⟩
  unfold PSS.autoGenerateKey
  rw [if_neg (by decide), hr]
  show (if (bitsLen sk.pk.n + 6) >>> 3 < 16 + PSS.computeSaltLen (some 46) 16 (bitsLen sk.pk.n) + 2 then _ else (.ok ⟨.pri sk, PSS.computeSaltLen (some 46) 16 (bitsLen sk.pk.n), MD5.new, 2, false⟩ : Res (PSS.Obj Nat (MD.State MD5.Quad)))) = _
  rw [hb]
  rfl

end Verif.Props
