import Verif.Proof.Sized
import Verif.Props.Counter
import Verif.Props.PSS

/-!
# C110: sizes given by the caller near the limit of the machine word

`debug = true` is a build with overflow checks, `debug = false` one without. Everywhere the sizes are numbers below `2^64`, as `usize` values are.
-/

namespace Verif.Props
open Verif.Model Verif.Model.RSA Verif.Spec.RSA
open Verif.Spec (toBE)

/-! ## Counters -/

/-- C110 for counters: up to a width of `2^64 - 8` bits, in both builds, construction succeeds exactly if the initial value fits, and call number
`i` of `next` gives the big-endian number `initial value + i`, modulo `256^len`. Missing: the widths above, see `C110_counter_refuted`. -/
theorem C110_counter_partial (debug : Bool) (v : Bytes) (bits : Nat) (hb : bits ≤ 2 ^ 64 - 8) :
    (v.length ≤ (bits + 7) / 8 → ∃ c, Sized.counterNew debug v bits = .ok c ∧ c.bitsLen = bits ∧
      ∀ i, Sized.counterValue debug c i = .ok (some (toBE ((bits + 7) / 8) (beNat v + i)))) ∧
    (¬ v.length ≤ (bits + 7) / 8 → Sized.counterNew debug v bits = .error (.err .invalidParameter)) := by
  have hb' : bits + 7 < 2 ^ 64 := by omega
  have hn : Sized.counterNew debug v bits = DefaultCounter.new v bits := by
    simp only [Sized.counterNew, Sized.bytesOf_ok debug hb', bind, Except.bind, DefaultCounter.new]
  rw [hn]
  refine ⟨fun h => ?_, (C03_counter_new v bits).2⟩
  obtain ⟨c, hc⟩ := (C03_counter_new v bits).1 h
  have hcb : c.bitsLen = bits := by
    unfold DefaultCounter.new at hc
    split at hc
    · cases hc
    · injection hc with hc; rw [← hc]
  refine ⟨c, hc, hcb, fun i => ?_⟩
  rw [Sized.counterValue_ok debug i c (by omega), C03_counter_next v bits c hc i]

example : ∃ c, Sized.counterNew false [0xff] 12 = .ok c ∧ Sized.counterValue false c 1 = .ok (some [1, 0]) := ⟨_, rfl, by decide⟩

/-- C110 fails for counters wider than `2^64 - 8` bits: a build with overflow checks panics in the constructor. One without refuses every initial
value except the empty one, which always fits: the counter it returns reports the width that was asked for, but all its values are empty. -/
theorem C110_counter_refuted (v : Bytes) (bits : Nat) (hb : 2 ^ 64 - 8 < bits) (hb' : bits < 2 ^ 64) :
    Sized.counterNew true v bits = .error .panic ∧
    (v ≠ [] → Sized.counterNew false v bits = .error (.err .invalidParameter)) ∧
    ∃ c, Sized.counterNew false [] bits = .ok c ∧ DefaultCounter.ops.bitsLen c = bits ∧ ∀ i, Sized.counterValue false c i = .ok (some []) := by
  have h : ¬ bits + 7 < 2 ^ 64 := by omega
  refine ⟨?_, fun hv => ?_, ⟨bits, [], none⟩, ?_, rfl, Sized.counterValue_empty bits h hb'⟩
  · rw [Sized.counterNew, Sized.bytesOf_debug h]; rfl
  · rw [Sized.counterNew, Sized.bytesOf_release h hb', Sized.res_ok_bind, if_pos (List.length_pos_iff.2 hv)]
  · rw [Sized.counterNew, Sized.bytesOf_release h hb', Sized.res_ok_bind]; rfl

example : 2 ^ 64 - 8 < 2 ^ 64 - 1 ∧ 2 ^ 64 - 1 < 2 ^ 64 := by decide

/-! ## Salt lengths -/

section
variable {σ S : Type} {d : Digest S}

/-- The salt length which PSS is asked for: `None` stands for the digest length and `Some(0)` for the room left in `k` bytes. -/
def saltAsked (want : Option Nat) (size k : Nat) : Nat :=
  match want with
  | none => size
  | some 0 => k - (2 + size)
  | some x => x

theorem computeSaltLen_asked (want : Option Nat) (size bits : Nat) : PSS.computeSaltLen want size bits = saltAsked want size ((bits + 7) / 8) := by
  match want with
  | none => rfl
  | some 0 => simp only [PSS.computeSaltLen, saltAsked, gt_iff_lt, Nat.lt_irrefl, if_false, Nat.shiftRight_eq_div_pow]
  | some (x + 1) => rfl

/-- C110 for PSS, exactly: `size` is the digest length, `s` the salt length asked for, `emLen` the length of an encoded message. As long as
`size + s + 2` is below `2^64`, the constructor refuses the salt exactly if it does not fit into `emLen`. From there on a build with overflow checks
panics, and one without compares `size + s + 2 - 2^64`. -/
theorem C110_pss_new (debug : Bool) (hf : S) (rd : σ) (kp : KeyPair) (hk : kp.publicKey.n ≠ 0) (want : Option Nat) (hw : ∀ x, want = some x → x < 2 ^ 64)
    (bl : Bool) (hd : d.bitsLen hf + 7 < 2 ^ 64) (hb : bitsLen kp.publicKey.n + 7 < 2 ^ 64) (size s emLen : Nat) (hsz : size = (d.bitsLen hf + 7) / 8)
    (hs : s = saltAsked want size ((bitsLen kp.publicKey.n + 7) / 8)) (hem : emLen = (bitsLen kp.publicKey.n - 1 + 7) / 8) :
    Sized.pssNewUncheck debug d hf rd kp want bl =
      if size + s + 2 < 2 ^ 64 then (if emLen < size + s + 2 then .error (.err .invalidParameter) else .ok ⟨kp, s, hf, rd, bl⟩)
      else if debug then .error .panic
      else if emLen < size + s + 2 - 2 ^ 64 then .error (.err .invalidParameter) else .ok ⟨kp, s, hf, rd, bl⟩ := by
  have hbp : 0 < bitsLen kp.publicKey.n := Nat.size_pos.2 (Nat.pos_of_ne_zero hk)
  rw [Sized.pssNewUncheck, Sized.bytesOf_ok debug hd, Sized.res_ok_bind, ← hsz, Sized.computeSaltLen_ok debug want hb (by omega), Sized.res_ok_bind,
    computeSaltLen_asked, ← hs, Sized.usub_ok debug hbp, Sized.res_ok_bind, Sized.bytesOf_ok debug (by omega), Sized.res_ok_bind, ← hem]
  have hs64 : s < 2 ^ 64 := by
    match want, hw with
    | none, _ => rw [hs]; show size < _; omega
    | some 0, _ => rw [hs]; show _ - _ < _; omega
    | some (x + 1), hw => rw [hs]; exact hw _ rfl
  by_cases hr : size + s + 2 < 2 ^ 64
  · rw [Sized.room_ok debug hr, Sized.res_ok_bind, if_pos hr]
  · rw [if_neg hr]
    cases debug with
    | true => rw [Sized.room_debug hr]; rfl
    | false => rw [Sized.room_release hr (by omega) hs64, Sized.res_ok_bind, if_neg Bool.false_ne_true]

/-- C110 for PSS: an object whose salt length and digest length add up to less than `2^64 - 2` signs and verifies as the model over unbounded numbers
(C48, C65) says. Missing: the salt lengths above, see `C110_pss_refuted`. -/
theorem C110_pss_partial (debug : Bool) (g : Rng σ) (fuel : Nat) (o : PSS.Obj σ S) (hd : d.bitsLen o.hf + 7 < 2 ^ 64)
    (hr : (d.bitsLen o.hf + 7) / 8 + o.slen + 2 < 2 ^ 64) (msg : Bytes) :
    (∀ sig, Sized.pssVerify debug d o sig msg = PSS.verify debug d o sig msg) ∧
    (o.slen < 2 ^ 63 → Sized.pssSign debug g fuel d o msg = PSS.sign debug g fuel d o msg) := by
  constructor
  · intro sig
    unfold Sized.pssVerify PSS.verify
    simp only [Sized.pssVerifyEM_ok debug o.hf o.slen _ msg _ hd hr]
  · intro hs
    rw [Sized.pssSign, Sized.withCapacity_ok hs, Sized.res_ok_bind, Sized.uadd_ok debug (by omega), Sized.res_ok_bind]
    rfl

/-- C110 for PSS: an object in which the lengths add up to `2^64` or more cannot sign (the call panics), and in a release build accepts no signature
at all. -/
theorem C110_pss_useless (debug : Bool) (g : Rng σ) (fuel : Nat) (o : PSS.Obj σ S) (hd : d.bitsLen o.hf + 7 < 2 ^ 64) (hs : o.slen < 2 ^ 64)
    (hr : ¬ (d.bitsLen o.hf + 7) / 8 + o.slen + 2 < 2 ^ 64) (hb : bitsLen o.kp.publicKey.n + 7 < 2 ^ 64) (msg : Bytes) :
    Sized.pssSign debug g fuel d o msg = .error .panic ∧ ∀ sig o', Sized.pssVerify false d o sig msg ≠ .ok o' := by
  constructor
  · rw [Sized.pssSign, Sized.withCapacity_panic (by omega)]; rfl
  · intro sig o'
    unfold Sized.pssVerify
    simp only []
    split
    · intro h; cases h
    split
    · intro h; cases h
    cases hv : Sized.pssVerifyEM false d o.hf o.slen (fitTo ((bitsLen o.kp.publicKey.n - 1 + 7) >>> 3)
        (natBytes (o.kp.publicKey.encrypt (beNat sig)))) msg (bitsLen o.kp.publicKey.n - 1) with
    | error e => intro h; cases h
    | ok hf => exact absurd hv (Sized.pssVerifyEM_wrap o.hf o.slen _ msg _ hd hs hr (by omega) hf)

/-- C110 fails for PSS salt lengths: whatever the digest and the key, if an encoded message has room for the digest and one byte, the constructor of a
release build accepts the salt length `2^64 - 1`, which no modulus can hold. The object reports that length, every call of `sign` panics, and no
signature is ever accepted. A build with overflow checks panics in the constructor. -/
theorem C110_pss_refuted (g : Rng σ) (fuel : Nat) (hf : S) (rd : σ) (kp : KeyPair) (hk : PKCS1.checkKey kp = .ok ()) (hn : kp.publicKey.n ≠ 0) (bl : Bool)
    (hd : d.bitsLen hf + 7 < 2 ^ 64) (hb : bitsLen kp.publicKey.n + 7 < 2 ^ 64)
    (hr : (d.bitsLen hf + 7) / 8 + 1 ≤ (bitsLen kp.publicKey.n - 1 + 7) / 8) :
    Sized.pssNew true d hf rd kp (some (2 ^ 64 - 1)) bl = .error .panic ∧
    ∃ o : PSS.Obj σ S, Sized.pssNew false d hf rd kp (some (2 ^ 64 - 1)) bl = .ok o ∧ o.kp = kp ∧ PSS.saltLen o = 2 ^ 64 - 1 ∧
      ∀ msg, Sized.pssSign false g fuel d o msg = .error .panic ∧ ∀ sig o', Sized.pssVerify false d o sig msg ≠ .ok o' := by
  have hw : ∀ x, (some (2 ^ 64 - 1) : Option Nat) = some x → x < 2 ^ 64 := by rintro x h; injection h with h; omega
  have hsa : ∀ k, saltAsked (some (2 ^ 64 - 1)) ((d.bitsLen hf + 7) / 8) k = 2 ^ 64 - 1 := fun k => rfl
  have key := fun dbg => C110_pss_new (d := d) dbg hf rd kp hn (some (2 ^ 64 - 1)) hw bl hd hb _ _ _ rfl rfl rfl
  simp only [hsa] at key
  have h1 : ¬ (d.bitsLen hf + 7) / 8 + (2 ^ 64 - 1) + 2 < 2 ^ 64 := by omega
  simp only [if_neg h1] at key
  refine ⟨?_, ⟨kp, 2 ^ 64 - 1, hf, rd, bl⟩, ?_, rfl, rfl, fun msg => C110_pss_useless false g fuel _ hd (by show 2 ^ 64 - 1 < _; omega) h1 hb msg⟩
  · rw [Sized.pssNew, hk, Sized.res_ok_bind, key]; rfl
  · rw [Sized.pssNew, hk, Sized.res_ok_bind, key, if_neg (by decide), if_neg (by omega)]

/-- The hypotheses are met by MD5 and a key of 512 bits. -/
example : Sized.pssNew true MD5.digest MD5.new () (.pri pssKey512) (some (2 ^ 64 - 1)) false = .error .panic :=
  (C110_pss_refuted wordRng 0 MD5.new () (.pri pssKey512) pssKey512_isValid (by decide +kernel) false (by decide)
    (by show bitsLen pssKey512.pk.n + 7 < _; rw [pssKey512_bits]; decide)
    (by
      have h1 : (KeyPair.pri pssKey512).publicKey = pssKey512.pk := rfl
      rw [h1, pssKey512_bits]; decide)).1

/-- The object of `md5Pss` meets the hypotheses of `C110_pss_partial`. -/
example (sig msg : Bytes) : Sized.pssVerify false MD5.digest (md5Pss pssKey512) sig msg = PSS.verify false MD5.digest (md5Pss pssKey512) sig msg :=
  (C110_pss_partial false wordRng 0 (md5Pss pssKey512) (by decide) (by decide) msg).1 sig

/-- C110 for `auto_generate_key` of PSS: lengths that add up to `2^64` or more make a build with overflow checks panic; one without goes on to
generate a key although no modulus can hold the salt, if `bits` has room for the rest. -/
theorem C110_pss_auto (g : Rng σ) (fuel : Nat) (tooFew : Bool) (bits : Nat) (hf : S) (rd : σ) (x : Nat) (hx : 0 < x) (hx' : x < 2 ^ 64) (bl : Bool)
    (hd : d.bitsLen hf + 7 < 2 ^ 64) (hb : bits + 7 < 2 ^ 64) (hr : 2 ^ 64 ≤ (d.bitsLen hf + 7) / 8 + x + 2) :
    Sized.pssAutoGenerateKey true g fuel tooFew d bits hf rd (some x) bl = .error .panic ∧
    ((d.bitsLen hf + 7) / 8 + x + 2 - 2 ^ 64 ≤ (bits - 1 + 7) / 8 → ∀ key rd', generateKey g fuel tooFew bits rd = .ok (key, rd') →
      Sized.pssAutoGenerateKey false g fuel tooFew d bits hf rd (some x) bl = Sized.pssNewUncheck false d hf rd' (.pri key) (some x) bl) := by
  have hc : ∀ dbg, Sized.computeSaltLen dbg (some x) ((d.bitsLen hf + 7) / 8) bits = .ok x := fun dbg => if_pos hx
  have h1 : ¬ (d.bitsLen hf + 7) / 8 + x + 2 < 2 ^ 64 := by omega
  constructor
  · rw [Sized.pssAutoGenerateKey, Sized.bytesOf_ok _ hd, Sized.res_ok_bind, hc, Sized.res_ok_bind, Sized.bytesOf_ok _ (by omega), Sized.res_ok_bind,
      Sized.room_debug h1]
    rfl
  · intro hm key rd' hg
    rw [Sized.pssAutoGenerateKey, Sized.bytesOf_ok _ hd, Sized.res_ok_bind, hc, Sized.res_ok_bind, Sized.bytesOf_ok _ (by omega), Sized.res_ok_bind,
      Sized.room_release h1 (by omega) hx', Sized.res_ok_bind, if_neg (by omega), hg]
    rfl

example : 2 ^ 64 ≤ (MD5.digest.bitsLen MD5.new + 7) / 8 + (2 ^ 64 - 1) + 2 := by decide

/-! ## Digest lengths -/

/-- C110 for the length of an extendable digest in OAEP: up to `2^64 - 8` bits the constructor of both builds demands room for twice the digest
length and two bytes more. Above that a build with overflow checks panics and one without takes the length for 0. -/
theorem C110_oaep_digest (debug : Bool) (hf : S) (rd : σ) (kp : KeyPair) (label : Bytes) (bl : Bool) (hb : d.bitsLen hf < 2 ^ 64) :
    Sized.oaepNewUncheck debug d hf rd kp label bl =
      if d.bitsLen hf ≤ 2 ^ 64 - 8 then
        (if kp.publicKey.modulusLen ≤ 2 * ((d.bitsLen hf + 7) / 8) + 2 then .error (.err .invalidParameter) else .ok ⟨kp, hf, rd, label, bl⟩)
      else if debug then .error .panic
      else if kp.publicKey.modulusLen ≤ 2 then .error (.err .invalidParameter) else .ok ⟨kp, hf, rd, label, bl⟩ := by
  by_cases h : d.bitsLen hf + 7 < 2 ^ 64
  · rw [if_pos (by omega), Sized.oaepNewUncheck, Sized.bytesOf_ok debug h, Sized.res_ok_bind]
    have h2 : ((d.bitsLen hf + 7) / 8) <<< 1 % 2 ^ 64 = 2 * ((d.bitsLen hf + 7) / 8) := by
      rw [Nat.shiftLeft_eq, Nat.mod_eq_of_lt (by omega)]; omega
    rw [h2, Sized.uadd_ok debug (by omega), Sized.res_ok_bind]
  · rw [if_neg (by omega), Sized.oaepNewUncheck]
    cases debug with
    | true => rw [Sized.bytesOf_debug h]; rfl
    | false => rw [Sized.bytesOf_release h hb, Sized.res_ok_bind]; rfl

example : MD5.digest.bitsLen MD5.new ≤ 2 ^ 64 - 8 := by decide

/-! ## Reservations -/

/-- C110 for the rate of a sponge and the number of primes: from `2^63` on the reservation of memory panics; below, the calls do what the models
over unbounded numbers say. -/
theorem C110_capacity (k : Keccak.State) (rate : Nat) (g : Rng σ) (fuel : Nat) (tooFew : Bool) (nPrimes bits : Nat) (hbits : 64 ≤ bits) (s : σ) :
    (rate < 2 ^ 63 → Sized.spongeNew k rate = Sponge.new k rate) ∧ (2 ^ 63 ≤ rate → Sized.spongeNew k rate = .error .panic) ∧
    (nPrimes < 2 ^ 63 → Sized.generateMultiPrimeKey g fuel tooFew nPrimes bits s = RSA.generateMultiPrimeKey g fuel tooFew nPrimes bits s) ∧
    (2 ^ 63 ≤ nPrimes → Sized.generateMultiPrimeKey g fuel tooFew nPrimes bits s = .error .panic) := by
  refine ⟨fun h => ?_, fun h => ?_, fun h => ?_, fun h => ?_⟩
  · rw [Sized.spongeNew, Sized.withCapacity_ok h, Sized.res_ok_bind]; rfl
  · rw [Sized.spongeNew, if_pos (Or.inl (by omega)), Sized.withCapacity_panic (by omega)]; rfl
  · rw [Sized.generateMultiPrimeKey, Sized.withCapacity_ok h, Sized.res_ok_bind]
    split
    · rw [RSA.generateMultiPrimeKey, if_pos ‹_›]
    split
    · omega
    · rfl
  · rw [Sized.generateMultiPrimeKey, if_neg (by omega), if_neg (by omega), Sized.withCapacity_panic (by omega)]; rfl

example : ∃ k, Keccak.new 1600 24 = .ok k ∧ Sized.spongeNew k (2 ^ 64 - 1) = .error .panic :=
  ⟨_, rfl, (C110_capacity (σ := Unit) _ _ wordRng 0 false 2 64 (by decide) ()).2.1 (by decide)⟩

end

end Verif.Props
