import Verif.Proof.FlakyMac
import Verif.Proof.Toy
import Verif.Props.Flaky

/-!
# C116: `encrypt`, `decrypt` and CMAC over a cipher whose calls may fail

What is in the caller's buffer and in the object after a call that failed half-way, for every schedule of failures; what happens if the client tries again; and
what CMAC objects return if the client catches the panic.
-/

namespace Verif.Props
open Verif.Model Verif.Spec
open Verif.Spec.Flaky (first)
open Verif.Spec.FlakyOnce (once chained)
open Verif.Model.Flaky (Sched)
open Verif.Model.FlakyOnce (cipher attempts Mac)

variable {c : BlockCipher} {E D : Bytes → Bytes}

/-- The calls of the cipher made so far, the buffer of the caller and the result; the other part of the state is a scratch buffer local to the call. -/
def callEnd (r : (Nat × Bytes) × Bytes × Res Nat) : Nat × Bytes × Res Nat := (r.1.1, r.2)

private theorem unpadDelivers (p : Padding) (x : Bytes) : Delivers (p.unpadding x) (p.unpad x) := OutBuf.unpadAt_delivers p () x

private theorem blocksLen {n : Nat} {blocks : List Bytes} (hn : 0 < n) (hb : IsBlocks n blocks) : blocks.flatten.length / n = blocks.length := by
  rw [hb.length_flatten, Nat.mul_div_cancel_left _ hn]

/-! ## Encryption -/

/-- C116 (ECB encryption): one call of the cipher per block of the ciphertext `ct` of a cipher that never fails. If they are all served, the result is `ct`; if the
cipher fails after `k` blocks, the buffer holds these `k` blocks of `ct` and the cipher's error is returned. What was in the buffer before does not matter. -/
theorem C116_ecb_encrypt (h : Lawful c E D) (fail : Sched) (p : Padding) (m : Bytes) (hp : PadOk p c.bs c.bs m) (t : Nat) (buf dst : Bytes) :
    ∃ ct, ECB.encrypt c p m = .ok ct ∧
      callEnd (OutBuf.ecbEncrypt (cipher c fail) p (t, buf) dst m) = once (badCalls fail) c.bs t (ct.length / c.bs) (ct, .ok ct.length) ct := by
  obtain ⟨blocks, tl, hb, ht, rfl⟩ := exists_blocks h.pos m
  obtain ⟨pb, h1, h2, _⟩ := padOk_blocks h.pos (Nat.dvd_refl _) h.pos hb ht hp
  refine ⟨_, ECB.encrypt_eq h hb ht h1 h2, ?_⟩
  have hl : (ecb E (blocks ++ pb)).flatten.length / c.bs = blocks.length + pb.length := by
    rw [blocksLen h.pos]
    · simp [ecb]
    · intro x hx
      simp only [ecb, List.mem_map, List.mem_append] at hx
      obtain ⟨y, hy | hy, rfl⟩ := hx
      · exact h.lenE _ (hb y hy)
      · exact h.lenE _ (h1 y hy)
  rw [hl]
  exact Model.FlakyOnce.ecbEncrypt_eq h hb ht h1 h2 t buf dst

/-- C116 (CBC encryption): the same. -/
theorem C116_cbc_encrypt (h : Lawful c E D) (fail : Sched) (p : Padding) (iv m : Bytes) (hiv : iv.length = c.bs) (hp : PadOk p c.bs c.bs m) (t : Nat) (buf dst : Bytes) :
    ∃ ct, CBC.encrypt c p iv m = .ok ct ∧
      callEnd (OutBuf.cbcEncrypt (cipher c fail) p iv (t, buf) dst m) = once (badCalls fail) c.bs t (ct.length / c.bs) (ct, .ok ct.length) ct := by
  obtain ⟨blocks, tl, hb, ht, rfl⟩ := exists_blocks h.pos m
  obtain ⟨pb, h1, h2, _⟩ := padOk_blocks h.pos (Nat.dvd_refl _) h.pos hb ht hp
  refine ⟨_, CBC.encrypt_eq h hiv hb ht h1 h2, ?_⟩
  have hl : ((cbcEnc E iv blocks).flatten ++ (ecb E pb).flatten).length / c.bs = blocks.length + pb.length := by
    have e1 : IsBlocks c.bs (ecb E pb) := by
      intro x hx
      simp only [ecb, List.mem_map] at hx
      obtain ⟨y, hy, rfl⟩ := hx
      exact h.lenE _ (h1 y hy)
    have e2 := Model.FlakyOnce.length_runPure (Model.FlakyOnce.cbcEnc_body (fail := fail) h).inv hb (s := iv) hiv
    rw [CBC.runPure_encF_snd] at e2
    rw [List.length_append, e2, e1.length_flatten, ← Nat.mul_add, Nat.mul_div_cancel_left _ h.pos]
    simp [ecb]
  rw [hl]
  exact Model.FlakyOnce.cbcEncrypt_eq h hiv hb ht h1 h2 t buf dst

/-- C116 (CFB encryption with segments of `s` bytes, any padding): the same, one call per segment. -/
theorem C116_cfb_encrypt (h : Lawful c E D) (fail : Sched) (p : Padding) (s : Nat) (hs0 : 0 < s) (hs : s ≤ c.bs) (iv m : Bytes) (hiv : iv.length = c.bs) (t : Nat)
    (buf dst : Bytes) :
    ∃ ct, CFB.encrypt c p s iv m = .ok ct ∧
      callEnd (OutBuf.cfbEncrypt (cipher c fail) p s iv (t, buf) dst m) = once (badCalls fail) s t (ct.length / s) (ct, .ok ct.length) ct := by
  obtain ⟨blocks, tl, hb, ht, rfl⟩ := exists_blocks hs0 m
  obtain ⟨pb, rem, h1, h2, h3⟩ := exists_blocks hs0 (p.padding tl)
  refine ⟨_, CFB.encrypt_eq h hs0 hs hiv hb ht h1 h2 h3, ?_⟩
  have hl : (cfbEnc E s iv (blocks ++ pb)).flatten.length / s = blocks.length + pb.length := by
    have e2 := Model.FlakyOnce.length_runPure (Model.FlakyOnce.cfbEnc_body (fail := fail) h hs).inv (hb.append h1) (s := iv) hiv
    rw [CFB.runPure_encF_snd] at e2
    rw [e2, Nat.mul_div_cancel_left _ hs0, List.length_append]
  rw [hl]
  exact Model.FlakyOnce.cfbEncrypt_eq h hs0 hs hiv hb ht h1 h2 h3 t buf dst

/-- C116 (OFB, both directions): one call per started block, and one more if the message ends with a whole block. -/
theorem C116_ofb (h : Lawful c E D) (fail : Sched) (iv m : Bytes) (hiv : iv.length = c.bs) (t : Nat) (buf dst : Bytes) :
    ∃ ct, OFB.encrypt c iv m = .ok ct ∧ OFB.decrypt c iv m = .ok ct ∧
      callEnd (OutBuf.ofbEncrypt (cipher c fail) iv (t, buf) dst m) = once (badCalls fail) c.bs t (m.length / c.bs + 1) (ct, .ok ct.length) ct :=
  ⟨_, OFB.encrypt_eq h hiv m, OFB.encrypt_eq h hiv m, Model.FlakyOnce.ofbEncrypt_eq h hiv m t buf dst⟩

/-! ## Decryption -/

/-- C116 (ECB decryption of whole blocks): if all calls are served, buffer and result are those of a cipher that never fails, `whole`; if the cipher fails after `k`
blocks, the buffer holds the first `k` blocks of the decryption `raw` without unpadding. -/
theorem C116_ecb_decrypt (h : Lawful c E D) (fail : Sched) (p : Padding) (ct : Bytes) (hct : ct.length % c.bs = 0) (t : Nat) (buf dst : Bytes) :
    ∃ raw whole, ECB.decrypt c .empty ct = .ok raw ∧ Delivers whole (ECB.decrypt c p ct) ∧
      callEnd (OutBuf.ecbDecrypt (cipher c fail) p (t, buf) dst ct) = once (badCalls fail) c.bs t (ct.length / c.bs) whole raw := by
  have hb := blocksOf_isBlocks c.bs ct
  have hf := flatten_blocksOf h.pos hct
  generalize blocksOf c.bs ct = blocks at hb hf
  subst hf
  refine ⟨_, p.unpadding (ecb D blocks).flatten, ECB.decrypt_eq h hb, ?_, ?_⟩
  · rw [ECB.decrypt_eq h hb]
    exact unpadDelivers _ _
  · rw [blocksLen h.pos hb]
    exact Model.FlakyOnce.ecbDecrypt_eq h hb t buf dst

/-- C116 (CBC decryption): the same. -/
theorem C116_cbc_decrypt (h : Lawful c E D) (fail : Sched) (p : Padding) (iv ct : Bytes) (hiv : iv.length = c.bs) (hct : ct.length % c.bs = 0) (t : Nat) (buf dst : Bytes) :
    ∃ raw whole, CBC.decrypt c .empty iv ct = .ok raw ∧ Delivers whole (CBC.decrypt c p iv ct) ∧
      callEnd (OutBuf.cbcDecrypt (cipher c fail) p iv (t, buf) dst ct) = once (badCalls fail) c.bs t (ct.length / c.bs) whole raw := by
  have hb := blocksOf_isBlocks c.bs ct
  have hf := flatten_blocksOf h.pos hct
  generalize blocksOf c.bs ct = blocks at hb hf
  subst hf
  refine ⟨_, p.unpadding (cbcDec D iv blocks).flatten, CBC.decrypt_eq h hiv hb, ?_, ?_⟩
  · rw [CBC.decrypt_eq h hiv hb]
    exact unpadDelivers _ _
  · rw [blocksLen h.pos hb]
    exact Model.FlakyOnce.cbcDecrypt_eq h hiv hb t buf dst

/-- C116 (CFB decryption): the same, one call per segment. -/
theorem C116_cfb_decrypt (h : Lawful c E D) (fail : Sched) (p : Padding) (s : Nat) (hs0 : 0 < s) (hs : s ≤ c.bs) (iv ct : Bytes) (hiv : iv.length = c.bs)
    (hct : ct.length % s = 0) (t : Nat) (buf dst : Bytes) :
    ∃ raw whole, CFB.decrypt c .empty s iv ct = .ok raw ∧ Delivers whole (CFB.decrypt c p s iv ct) ∧
      callEnd (OutBuf.cfbDecrypt (cipher c fail) p s iv (t, buf) dst ct) = once (badCalls fail) s t (ct.length / s) whole raw := by
  have hb := blocksOf_isBlocks s ct
  have hf := flatten_blocksOf hs0 hct
  generalize blocksOf s ct = blocks at hb hf
  subst hf
  refine ⟨_, p.unpadding (cfbDec E s iv blocks).flatten, CFB.decrypt_eq h hs0 hs hiv hb, ?_, ?_⟩
  · rw [CFB.decrypt_eq h hs0 hs hiv hb]
    exact unpadDelivers _ _
  · rw [blocksLen hs0 hb]
    exact Model.FlakyOnce.cfbDecrypt_eq h hs0 hs hiv hb t buf dst

/-- Six bytes in blocks of two, default padding; the third call fails. -/
example : callEnd (OutBuf.ecbEncrypt (cipher (Toy.cipher 2) (failsAt 2)) (.defaultOf (Toy.cipher 2)) (0, []) [9, 9] [1, 2, 3, 4, 5, 6]) =
    (3, [3, 2, 5, 4], .error (.err .innerErr)) := by decide
example : callEnd (OutBuf.ecbEncrypt (cipher (Toy.cipher 2) (failsAt 4)) (.defaultOf (Toy.cipher 2)) (0, []) [9, 9] [1, 2, 3, 4, 5, 6]) =
    (4, [3, 2, 5, 4, 7, 6, 1, 0x81], .ok 8) := by decide
example : callEnd (OutBuf.cbcDecrypt (cipher (Toy.cipher 2) (failsAt 1)) (.defaultOf (Toy.cipher 2)) [0, 0] (0, []) [9, 9] [3, 2, 5, 4]) =
    (2, [1, 2], .error (.err .innerErr)) := by decide
example : callEnd (OutBuf.ofbEncrypt (cipher (Toy.cipher 2) (failsAt 1)) [0, 0] (0, []) [9, 9] [0, 0]) = (2, [1, 1], .error (.err .innerErr)) := by decide

/-! ## CTR -/

/-- C116 (CTR, both directions), for every counter that yields a block each time: one call per started block. The object has used one counter block for every call
of the cipher, also for one that failed. -/
theorem C116_ctr {κ : Type} {ops : CounterOps κ} (h : Lawful c E D) (fail : Sched) (k : κ) (v : Nat → Bytes) (hv : ∀ i, ops.value k i = some (v i) ∧ c.bs ≤ (v i).length)
    (m : Bytes) (t : Nat) (buf dst : Bytes) :
    ∃ used scratch, (Model.FlakyOnce.ctrEncrypt (cipher c fail) ops (k, t, buf) dst m).1 = (ops.after k used, t + used, scratch) ∧
      (t + used, (Model.FlakyOnce.ctrEncrypt (cipher c fail) ops (k, t, buf) dst m).2) =
        once (badCalls fail) c.bs t ((m.length + c.bs - 1) / c.bs)
          (ctr E c.bs (fun i => (v i).take c.bs) m, .ok (ctr E c.bs (fun i => (v i).take c.bs) m).length) (ctr E c.bs (fun i => (v i).take c.bs) m) := by
  have hk : CTR.Good c ops k := fun i => ⟨v i, hv i⟩
  have hin : CTR.input c ops k = fun i => (v i).take c.bs := by funext i; simp [CTR.input, (hv i).1]
  have := Model.FlakyOnce.ctrEncrypt_eq (fail := fail) h hk m t buf dst
  rw [hin] at this
  exact this

example : Model.FlakyOnce.ctrEncrypt (cipher (Toy.cipher 2) (failsAt 1)) DefaultCounter.ops ((⟨16, [0, 5], none⟩ : DefaultCounter), 0, []) [9] [0, 0, 0] =
    ((DefaultCounter.ops.after ⟨16, [0, 5], none⟩ 2, 2, [6, 1]), [6, 1], .error (.err .innerErr)) := by decide

/-! ## Trying again -/

/-- C116: with ECB, CBC, CFB and OFB a client may simply make a failed call again, with the same buffer: whatever comes out as a success is the right ciphertext,
and once the cipher has stopped failing the next attempt succeeds. -/
theorem C116_retry (h : Lawful c E D) (fail : Sched) (p : Padding) (s : Nat) (hs0 : 0 < s) (hs : s ≤ c.bs) (iv m : Bytes) (hiv : iv.length = c.bs)
    (hp : PadOk p c.bs c.bs m) (r t : Nat) (buf dst : Bytes) :
    ∀ x ∈ [(fun u d => OutBuf.ecbEncrypt (cipher c fail) p u d m, ECB.encrypt c p m), (fun u d => OutBuf.cbcEncrypt (cipher c fail) p iv u d m, CBC.encrypt c p iv m),
      (fun u d => OutBuf.cfbEncrypt (cipher c fail) p s iv u d m, CFB.encrypt c p s iv m), (fun u d => OutBuf.ofbEncrypt (cipher c fail) iv u d m, OFB.encrypt c iv m)],
    ∃ ct, x.2 = .ok ct ∧ (∀ l, (attempts x.1 r (t, buf) dst).2.2 = .ok l → (attempts x.1 r (t, buf) dst).2 = (ct, .ok ct.length)) ∧
      ∀ T, (∀ i, T ≤ i → badCalls fail i = false) → 0 < r → T < t + r → (attempts x.1 r (t, buf) dst).2 = (ct, .ok ct.length) := by
  intro x hx
  simp only [List.mem_cons, List.not_mem_nil, or_false] at hx
  rcases hx with rfl | rfl | rfl | rfl
  · obtain ⟨ct, e, _⟩ := C116_ecb_encrypt h fail p m hp t buf dst
    refine ⟨ct, e, Model.FlakyOnce.attempts_eq (n := c.bs) (w := ct.length / c.bs) (raw := ct) (fun t buf dst => ?_) r t buf dst⟩
    · obtain ⟨ct', e', h'⟩ := C116_ecb_encrypt h fail p m hp t buf dst
      rw [e] at e'; injection e' with e'; subst e'
      exact h'
  · obtain ⟨ct, e, _⟩ := C116_cbc_encrypt h fail p iv m hiv hp t buf dst
    refine ⟨ct, e, Model.FlakyOnce.attempts_eq (n := c.bs) (w := ct.length / c.bs) (raw := ct) (fun t buf dst => ?_) r t buf dst⟩
    · obtain ⟨ct', e', h'⟩ := C116_cbc_encrypt h fail p iv m hiv hp t buf dst
      rw [e] at e'; injection e' with e'; subst e'
      exact h'
  · obtain ⟨ct, e, _⟩ := C116_cfb_encrypt h fail p s hs0 hs iv m hiv t buf dst
    refine ⟨ct, e, Model.FlakyOnce.attempts_eq (n := s) (w := ct.length / s) (raw := ct) (fun t buf dst => ?_) r t buf dst⟩
    · obtain ⟨ct', e', h'⟩ := C116_cfb_encrypt h fail p s hs0 hs iv m hiv t buf dst
      rw [e] at e'; injection e' with e'; subst e'
      exact h'
  · obtain ⟨ct, e, _, _⟩ := C116_ofb h fail iv m hiv t buf dst
    refine ⟨ct, e, Model.FlakyOnce.attempts_eq (n := c.bs) (w := m.length / c.bs + 1) (raw := ct) (fun t buf dst => ?_) r t buf dst⟩
    · obtain ⟨ct', e', _, h'⟩ := C116_ofb h fail iv m hiv t buf dst
      rw [e] at e'; injection e' with e'; subst e'
      exact h'

example : (attempts (fun u d => OutBuf.cbcEncrypt (cipher (Toy.cipher 2) (failsAt 1)) (.defaultOf (Toy.cipher 2)) [0, 0] u d [1, 2, 3]) 2 (0, []) [9]).2 =
    ([3, 2, 0x81, 4, 1, 1], .ok 6) := by decide

/-- C116: with CTR that is wrong. The attempt that failed after `j` blocks has used `j + 1` counter blocks, and the next one goes on from there. A success is the
message encrypted under these later counter blocks, which is not what the peer decrypts. -/
theorem C116_ctr_retry_refuted {κ : Type} {ops : CounterOps κ} (h : Lawful c E D) (fail : Sched) (k : κ) (v : Nat → Bytes)
    (hv : ∀ i, ops.value k i = some (v i) ∧ c.bs ≤ (v i).length) (m : Bytes) (t : Nat) (buf dst : Bytes) (j : Nat)
    (h1 : first (badCalls fail) t ((m.length + c.bs - 1) / c.bs) = some j) (h2 : first (badCalls fail) (t + j + 1) ((m.length + c.bs - 1) / c.bs) = none) :
    (attempts (fun u d => Model.FlakyOnce.ctrEncrypt (cipher c fail) ops u d m) 2 (k, t, buf) dst).2 =
      (ctr E c.bs (fun i => (v (j + 1 + i)).take c.bs) m, .ok m.length) := by
  obtain ⟨w, b1, e1, e2⟩ := C116_ctr h fail k v hv m t buf dst
  rw [once, h1] at e2
  simp only [Prod.mk.injEq] at e2
  obtain ⟨hw, e2⟩ := e2
  have hw' : w = j + 1 := by omega
  subst hw'
  have hv' : ∀ i, ops.value (ops.after k (j + 1)) i = some (v (j + 1 + i)) ∧ c.bs ≤ (v (j + 1 + i)).length := by
    intro i
    have := hv (j + 1 + i)
    refine ⟨?_, this.2⟩
    rw [← this.1]
    simp only [CounterOps.value]
    congr 2
    clear * -
    generalize j + 1 = n
    induction i with
    | zero => rfl
    | succ i ih => rw [← Nat.add_assoc, CounterOps.after, CounterOps.after, ih]
  obtain ⟨w', b2, f1, f2⟩ := C116_ctr h fail (ops.after k (j + 1)) (fun i => v (j + 1 + i)) hv' m (t + (j + 1)) b1 (List.take (c.bs * j) (ctr E c.bs (fun i => (v i).take c.bs) m))
  rw [once, show t + (j + 1) = t + j + 1 from rfl, h2] at f2
  simp only [Prod.mk.injEq] at f2
  have hlen : (ctr E c.bs (fun i => (v (j + 1 + i)).take c.bs) m).length = m.length :=
    length_streamXor _ h.pos (fun i => h.lenE _ (by rw [List.length_take]; have := (hv (j + 1 + i)).2; omega)) m
  rw [← hlen]
  have g1 : Model.FlakyOnce.ctrEncrypt (cipher c fail) ops (k, t, buf) dst m = ((ops.after k (j + 1), t + (j + 1), b1), List.take (c.bs * j) (ctr E c.bs (fun i => (v i).take c.bs) m), .error (.err .innerErr)) := by
    rw [← e1, ← e2]
  rw [attempts, g1]
  simp only
  rw [attempts]
  have g2 := f2.2
  rw [show t + (j + 1) = t + j + 1 from rfl]
  generalize Model.FlakyOnce.ctrEncrypt (cipher c fail) ops (ops.after k (j + 1), t + j + 1, b1) _ m = q at g2
  obtain ⟨q1, q2, q3⟩ := q
  simp only [Prod.mk.injEq] at g2
  obtain ⟨rfl, rfl⟩ := g2
  rfl

/-- The second attempt returns a ciphertext that a new object with the same counter does not decrypt. -/
example : (attempts (fun u d => Model.FlakyOnce.ctrEncrypt (cipher (Toy.cipher 2) (failsAt 1)) DefaultCounter.ops u d [1, 2, 3]) 2 ((⟨16, [0, 5], none⟩ : DefaultCounter), 0, []) [9]).2 =
    ([9, 3, 10], .ok 3) ∧ (CTR.decrypt (Toy.cipher 2) DefaultCounter.ops (⟨16, [0, 5], none⟩ : DefaultCounter) [9, 3, 10]).map (·.2) ≠ .ok [1, 2, 3] := by decide

/-! ## CMAC -/

/-- C116 (CMAC), for blocks of 8 or 16 bytes: `new` hands back the error if its call of the cipher fails. Otherwise, under every schedule of failures and every history of
`write`, `checksum` and `reset`, a client that calls `reset` after each panic gets what Spec/FlakyOnce says: a call panics exactly if the cipher fails in it, a message is
lost with it, and each tag that is returned is the right one. -/
theorem C116_cmac (h : Lawful c E D) (fail : Sched) (b rb : Nat) (hcb : c.blockSize = some b) (hb : (b = 8 ∧ rb = 0x1b) ∨ (b = 16 ∧ rb = 0x87)) (t : Nat) :
    if badCalls fail t then Model.FlakyOnce.macNew c fail t = .error (.err .innerErr)
    else ∃ o, Model.FlakyOnce.macNew c fail t = .ok o ∧
      ∀ ops, Model.FlakyOnce.macRun fail o ops = Spec.FlakyOnce.macRun (badCalls fail) (Spec.CMAC.mac E b rb) b ⟨[], false, t + 1⟩ ops := by
  have hbs : c.bs = b := by rw [BlockCipher.bs, hcb]; rfl
  subst hbs
  have hrb : ∃ x : BitVec 32, CMAC.blockSizeToRb c.bs = some x ∧ x.toNat = rb := by
    rcases hb with ⟨h1, h2⟩ | ⟨h1, h2⟩ <;> rw [h1, h2]
    · exact ⟨0x1b#32, rfl, rfl⟩
    · exact ⟨0x87#32, rfl, rfl⟩
  obtain ⟨x, hx, rfl⟩ := hrb
  have := Model.FlakyOnce.macNew_eq (fail := fail) h hcb x hx t
  by_cases hf : badCalls fail t = true
  · rw [if_pos hf]
    rwa [if_pos (show Model.Flaky.bad fail t = true from hf)] at this
  · rw [if_neg hf]
    rw [if_neg (show ¬ Model.Flaky.bad fail t = true from hf)] at this
    obtain ⟨s, e, hI⟩ := this
    exact ⟨_, e, fun ops => Model.FlakyOnce.macRun_eq h hcb x.toNat ops s (t + 1) [] false hI⟩

/-- The third call (the tag of the first message) fails; the same message written again gets its tag. -/
example : ∃ o, Model.FlakyOnce.macNew (Toy.cipher 8) (failsAt 2) 0 = .ok o ∧
    Model.FlakyOnce.macRun (failsAt 2) o [.write [1, 2, 3, 4, 5, 6, 7, 8, 9], .checksum, .write [1, 2, 3, 4, 5, 6, 7, 8, 9], .checksum, .checksum] =
      [.ok [], .error .panic, .ok [], .ok (Spec.CMAC.mac Toy.E 8 0x1b [1, 2, 3, 4, 5, 6, 7, 8, 9]), .ok (Spec.CMAC.mac Toy.E 8 0x1b [1, 2, 3, 4, 5, 6, 7, 8, 9])] :=
  ⟨⟨⟨[2, 2, 2, 2, 2, 2, 2, 2], [4, 4, 4, 4, 4, 4, 4, 4], [], [0, 0, 0, 0, 0, 0, 0, 0], false, Toy.cipher 8⟩, 1⟩, rfl, by decide⟩

/-- C116: without the `reset` the next tag is wrong. If the cipher fails in `checksum` and leaves its destination alone, and the client calls `checksum` again, the last
block is masked a second time, which removes subkey and chaining value: for a message of whole blocks the "tag" is the plain encryption of its last block, whatever the blocks
before it are. -/
theorem C116_cmac_again_refuted (h : Lawful c E D) (b : Nat) (hcb : c.blockSize = some b) (hb : b = 8 ∨ b = 16) (m : Bytes) (hm0 : m ≠ []) (hm : m.length % b = 0) :
    ∃ o o1 o2, Model.FlakyOnce.macNew c (failsAt (m.length / b)) 0 = .ok o ∧ Model.FlakyOnce.macWrite (failsAt (m.length / b)) o m = (.ok (), o1) ∧
      Model.FlakyOnce.macChecksum (failsAt (m.length / b)) o1 = (.error .panic, o2) ∧
      (Model.FlakyOnce.macChecksum (failsAt (m.length / b)) o2).1 = .ok (E (m.drop (m.length - b))) := by
  have hbs : c.bs = b := by rw [BlockCipher.bs, hcb]; rfl
  subst hbs
  have hrb : ∃ x : BitVec 32, CMAC.blockSizeToRb c.bs = some x := by
    rcases hb with h1 | h1 <;> rw [h1]
    · exact ⟨0x1b#32, rfl⟩
    · exact ⟨0x87#32, rfl⟩
  obtain ⟨x, hx⟩ := hrb
  obtain ⟨q, hq⟩ := Nat.dvd_of_mod_eq_zero hm
  have hq0 : 0 < q := by
    rcases Nat.eq_zero_or_pos q with rfl | h0
    · exact absurd (List.length_eq_zero_iff.1 (by simpa using hq)) hm0
    · exact h0
  have hdiv : m.length / c.bs = q := by rw [hq, Nat.mul_div_cancel_left _ h.pos]
  rw [hdiv]
  have hch : chained c.bs m.length = q - 1 := by
    apply Model.FlakyOnce.chained_of
    · rw [hq, Nat.mul_comm c.bs]; exact Nat.mul_lt_mul_of_pos_right (by omega) h.pos
    · rw [hq, Nat.mul_comm c.bs, ← Nat.succ_mul]; exact Nat.mul_le_mul_right _ (by omega)
  have h1 := Model.FlakyOnce.macNew_eq (fail := failsAt q) h hcb x hx 0
  rw [if_neg (by simp [Model.Flaky.bad, failsAt]; omega)] at h1
  obtain ⟨s, e, hI⟩ := h1
  have h2 := Model.FlakyOnce.macWrite_inv (fail := failsAt q) h hcb x.toNat s 1 [] m false hI
  simp only [Bool.false_eq_true, if_false, List.nil_append, hch, List.length_nil, show chained c.bs 0 = 0 by simp [chained], Nat.sub_zero] at h2
  have h3 : first (Model.Flaky.bad (failsAt q)) 1 (q - 1) = none := by
    rw [Model.Flaky.first_none]
    intro i hi
    simp only [Model.Flaky.bad, failsAt]
    rw [if_neg (by omega)]; rfl
  rw [h3] at h2
  obtain ⟨s1, e1, hI1⟩ := h2
  rw [show 1 + (q - 1) = q by omega] at e1
  obtain ⟨o2, e2, e3⟩ := Model.FlakyOnce.macChecksum_again (fail := failsAt q) h hcb x.toNat s1 q m hm0 hm hI1 (by simp [failsAt]) (by simp [failsAt])
  exact ⟨_, _, o2, e, e1, e2, e3⟩

/-- Two messages with the same last block then have the same "tag"; their tags differ. -/
example : Spec.CMAC.mac Toy.E 8 0x1b [1, 2, 3, 4, 5, 6, 7, 8, 1, 1, 1, 1, 1, 1, 1, 1] ≠ Spec.CMAC.mac Toy.E 8 0x1b [1, 2, 3, 4, 5, 6, 7, 9, 1, 1, 1, 1, 1, 1, 1, 1] ∧
    Lawful (Toy.cipher 8) Toy.E Toy.D ∧ (Toy.cipher 8).blockSize = some 8 := ⟨by decide, Toy.lawful 8 (by decide), rfl⟩

end Verif.Props
