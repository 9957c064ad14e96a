import Verif.Proof.OAEPText
import Verif.Props.OAEP

/-! Property C97 (what a refused OAEP ciphertext tells) -/

namespace Verif.Props
open Verif.Model Verif.Model.RSA Verif.Spec.RSA
open Verif.Spec (toBE Manger.attack Manger.question)
open Verif.Spec.PKCS1 (oaep oaepDB oaepMask oaepDBOf oaepRead BadSeparator)

section
variable {σ S : Type} {d : Digest S} {H : Bytes → Bytes} {bs : Option Nat} {size : Nat} {Abs Chk : S → Bytes → Prop}

/-- The call with texts is the call of C44 and C45: the same results and the same kinds of error. -/
theorem C97_same (g : Rng σ) (fuel : Nat) (d : Digest S) (o : OAEP.Obj σ S) (c : Bytes) :
    (∀ x, OAEP.decryptText g fuel d o c = .ok x ↔ OAEP.decrypt g fuel d o c = .ok x) ∧
    (∀ e, (∃ t, OAEP.decryptText g fuel d o c = .error (e, t)) ↔ OAEP.decrypt g fuel d o c = .error e) := by
  rw [← OAEP.forget_decryptText]
  cases OAEP.decryptText g fuel d o c with
  | ok a => exact ⟨fun x => by simp [OAEP.forget], fun e => by simp [OAEP.forget]⟩
  | error e => obtain ⟨e, t⟩ := e; exact ⟨fun x => by simp [OAEP.forget], fun e => by simp [OAEP.forget]⟩

/-- C97: the *kind* of the error says nothing: every ciphertext in the range that is refused is refused with the same kind. -/
theorem C97_kind_partial (L : LawfulDigest d H bs size Abs Chk) (hs : 0 < size) (g : Rng σ) (fuel : Nat) (sk : RSA.PrivateKey)
    (hv : ValidKey sk.pk.n sk.pk.e sk.d sk.primes) (hkc : Computed sk) (he : sk.pk.isValid = .ok ()) (b : OAEP.Obj σ S) (hb : b.kp = .pri sk)
    (hgb : GoodState Abs Chk b.hf) (hlabl : b.label.length < 2 ^ 64) (hu : b.blinding = true → Usable g sk.pk.n fuel b.rd)
    (hk : sk.pk.modulusLen + 4 < 2 ^ 64) (hk2 : 2 * size + 2 ≤ sk.pk.modulusLen) (c : Bytes) (hc0 : c ≠ []) (hcl : c.length ≤ sk.pk.modulusLen)
    (hc : beNat c ≤ sk.pk.n) :
    (∃ x, OAEP.decrypt g fuel d b c = .ok x) ∨ OAEP.decrypt g fuel d b c = .error (.err .verificationFailed) := by
  obtain ⟨h1, h2⟩ := OAEP.decrypt_eq L hs g fuel hv hkc he b hb hgb hu hlabl hk hk2 c hc0 hcl hc
  by_cases h0 : (toBE sk.pk.modulusLen (beNat c ^ sk.d % sk.pk.n)).head? = some 0x00#8
  · have hl : (toBE sk.pk.modulusLen (beNat c ^ sk.d % sk.pk.n)).length = sk.pk.modulusLen := Spec.length_toBE _ _
    generalize toBE sk.pk.modulusLen (beNat c ^ sk.d % sk.pk.n) = em at *
    cases em with
    | nil => cases h0
    | cons y ys =>
      cases h0
      obtain ⟨seed, db, hsd, -, e⟩ := OAEP.exists_unmask (H := H) L.length hs (em := ys) (by omega)
      obtain ⟨b', -, -, -, h⟩ := h1 seed db hsd e
      rw [h]
      unfold OAEP.open_
      split
      · exact Or.inr rfl
      · cases hsc : OAEP.scan (db.drop size) with
        | ok i => exact Or.inl ⟨_, rfl⟩
        | error e => rw [(OAEP.scan_error hsc).1]; exact Or.inr rfl
  · exact Or.inr (h2 h0)

/-- C97: but the *text* tells why. For every ciphertext in the range, in every state of the receiver's object: a number too large by a byte is reported
in one way, a wrong label hash in another, and nothing but a wrong separator after a right label hash looks like the first. -/
theorem C97_text_exact (L : LawfulDigest d H bs size Abs Chk) (hs : 0 < size) (g : Rng σ) (fuel : Nat) (sk : RSA.PrivateKey)
    (hv : ValidKey sk.pk.n sk.pk.e sk.d sk.primes) (hkc : Computed sk) (he : sk.pk.isValid = .ok ()) (b : OAEP.Obj σ S) (hb : b.kp = .pri sk)
    (hgb : GoodState Abs Chk b.hf) (hlabl : b.label.length < 2 ^ 64) (hu : b.blinding = true → Usable g sk.pk.n fuel b.rd)
    (hk : sk.pk.modulusLen + 4 < 2 ^ 64) (hk2 : 2 * size + 2 ≤ sk.pk.modulusLen) (c : Bytes) (hc0 : c ≠ []) (hcl : c.length ≤ sk.pk.modulusLen)
    (hc : beNat c ≤ sk.pk.n) :
    (OAEP.display (OAEP.decryptText g fuel d b c) = some "VerificationFailedInvalid message encoding format" ↔
      256 ^ (sk.pk.modulusLen - 1) ≤ rsadp sk.pk.n sk.d (beNat c) ∨
        BadSeparator H size b.label (toBE sk.pk.modulusLen (rsadp sk.pk.n sk.d (beNat c)))) ∧
    (OAEP.display (OAEP.decryptText g fuel d b c) = some "VerificationFailedInvalid label hash value" ↔
      rsadp sk.pk.n sk.d (beNat c) < 256 ^ (sk.pk.modulusLen - 1) ∧
        (oaepDBOf H size (toBE sk.pk.modulusLen (rsadp sk.pk.n sk.d (beNat c)))).take size ≠ H b.label) := by
  have hn := validKey_pos hv
  obtain ⟨k0, k1, -⟩ := modulusLen_spec sk.pk hn
  obtain ⟨h1, h2⟩ := OAEP.decryptText_eq L hs g fuel hv hkc he b hb hgb hu hlabl hk hk2 c hc0 hcl hc
  have hlt : rsadp sk.pk.n sk.d (beNat c) < 256 ^ sk.pk.modulusLen := Nat.lt_trans (Nat.mod_lt _ hn) k1
  have hhd := OAEP.head_toBE k0 hlt
  change (∀ seed db, seed.length = size → toBE sk.pk.modulusLen (rsadp sk.pk.n sk.d (beNat c)) = oaepMask H size seed db → _) at h1
  change ((toBE sk.pk.modulusLen (rsadp sk.pk.n sk.d (beNat c))).head? ≠ some 0x00#8 → _) at h2
  have hl : (toBE sk.pk.modulusLen (rsadp sk.pk.n sk.d (beNat c))).length = sk.pk.modulusLen := Spec.length_toBE _ _
  generalize rsadp sk.pk.n sk.d (beNat c) = x at *
  by_cases hx : x < 256 ^ (sk.pk.modulusLen - 1)
  · have h0 := hhd.2 hx
    generalize toBE sk.pk.modulusLen x = em at *
    cases em with
    | nil => cases h0
    | cons y ys =>
      cases h0
      obtain ⟨seed, db, hsd, -, e⟩ := OAEP.exists_unmask (H := H) L.length hs (em := ys) (by omega)
      obtain ⟨b', h⟩ := h1 seed db hsd e
      have hdb : oaepDBOf H size (0x00#8 :: ys) = db := by rw [e, OAEP.oaepDBOf_mask L.length hs hsd]
      rw [h]
      unfold BadSeparator
      rw [hdb]
      unfold OAEP.openText
      by_cases hlh : H b.label = db.take size
      · rw [if_neg (by simpa using hlh)]
        cases hsc : OAEP.scan (db.drop size) with
        | ok i =>
          refine ⟨⟨fun hc => (by cases hc), ?_⟩, ⟨fun hc => (by cases hc), fun hc => absurd hlh.symm hc.2⟩⟩
          rintro (hc | ⟨-, -, s1, s2⟩)
          · omega
          · rw [OAEP.scan_bad s1 s2] at hsc; cases hsc
        | error er =>
          obtain ⟨rfl, s1, s2⟩ := OAEP.scan_error hsc
          refine ⟨⟨fun _ => Or.inr ⟨rfl, hlh.symm, s1, s2⟩, fun _ => rfl⟩, ⟨fun hc => ?_, fun hc => absurd hlh.symm hc.2⟩⟩
          exact absurd (Option.some.inj hc) (by decide)
      · rw [if_pos hlh]
        refine ⟨⟨fun hc => absurd (Option.some.inj hc) (by decide), ?_⟩, ⟨fun _ => ⟨hx, fun hc => hlh hc.symm⟩, fun _ => rfl⟩⟩
        rintro (hc | hc)
        · omega
        · exact absurd hc.2.1.symm hlh
  · rw [h2 (fun hc => hx (hhd.1 hc))]
    refine ⟨⟨fun _ => Or.inl (by omega), fun _ => rfl⟩, ⟨fun hc => absurd (Option.some.inj hc) (by decide), fun hc => absurd hc.1 hx⟩⟩

/-- The one bit of the answer to a question that the attack looks at: whether the error reads "Invalid message encoding format". `b q` is the receiver's
object in whatever state it is when the question `q` comes. -/
def badFormat (g : Rng σ) (fuel : Nat) (d : Digest S) (b : Bytes → OAEP.Obj σ S) (q : Bytes) : Bool :=
  OAEP.display (OAEP.decryptText g fuel d (b q) q) == some "VerificationFailedInvalid message encoding format"

/-- C97: the text gives every message away. The attack is one program: it knows the public key and the ciphertext of `msg`, asks the receiver about at most
`8 (N + 1) (k - 1) + 258` other ciphertexts and finds the message; `N = 8` serves for three quarters of all encoded messages, `N = 2 ^ s` for all
but the fraction `2 ^ (1 - s)`. For every key whose modulus is at least three times the power of 256 below it, every label, hash function, seed,
message and every state of the receiver, with and without blinding. One proviso: no question happens on an encoding with the right
label hash and a wrong separator (for a hash of `size` bytes that is one number in `256 ^ size`). -/
theorem C97_refuted (L : LawfulDigest d H bs size Abs Chk) (hs : 0 < size) (g : Rng σ) (fuel : Nat) (sk : RSA.PrivateKey)
    (hv : ValidKey sk.pk.n sk.pk.e sk.d sk.primes) (hkc : Computed sk) (he : sk.pk.isValid = .ok ()) (label : Bytes) (b : Bytes → OAEP.Obj σ S)
    (hb : ∀ q, (b q).kp = .pri sk ∧ (b q).label = label ∧ GoodState Abs Chk (b q).hf ∧ ((b q).blinding = true → Usable g sk.pk.n fuel (b q).rd))
    (hlabl : label.length < 2 ^ 64) (hk : sk.pk.modulusLen + 4 < 2 ^ 64) (h3 : 3 * 256 ^ (sk.pk.modulusLen - 1) ≤ sk.pk.n)
    (seed msg : Bytes) (hsd : seed.length = size) (hl : msg.length + 2 * size + 2 ≤ sk.pk.modulusLen) (N : Nat) (hN : 8 ≤ N)
    (hNm : 2 * 256 ^ (sk.pk.modulusLen - 1) ≤
      N * (256 ^ (sk.pk.modulusLen - 1) - beNat (oaep H size sk.pk.modulusLen label seed msg)))
    (t : Spec.Ask Nat) (ht : t = Manger.attack sk.pk.modulusLen sk.pk.n sk.pk.e
      (rsaep sk.pk.n sk.pk.e (beNat (oaep H size sk.pk.modulusLen label seed msg))) N)
    (hclash : ∀ q ∈ t.asked (badFormat g fuel d b), ¬ BadSeparator H size label (toBE sk.pk.modulusLen (rsadp sk.pk.n sk.d (beNat q)))) :
    oaepRead H size (toBE sk.pk.modulusLen (t.run (badFormat g fuel d b))) = msg ∧
    (t.asked (badFormat g fuel d b)).length ≤ 8 * (N + 1) * (sk.pk.modulusLen - 1) + 258 := by
  have hn := validKey_pos hv
  obtain ⟨k0, k1, -⟩ := modulusLen_spec sk.pk hn
  have hel : (oaep H size sk.pk.modulusLen label seed msg).length = sk.pk.modulusLen := by
    rw [oaep, OAEP.length_oaepMask L.length hs, OAEP.length_oaepDB L.length hl]; omega
  have hm : beNat (oaep H size sk.pk.modulusLen label seed msg) < 256 ^ (sk.pk.modulusLen - 1) := by
    have hlt := beNat_lt (oaep H size sk.pk.modulusLen label seed msg)
    rw [hel] at hlt
    rw [← OAEP.head_toBE k0 hlt, toBE_em hel, oaep, oaepMask, List.head?_cons]
  subst ht
  have hrun : (Manger.attack sk.pk.modulusLen sk.pk.n sk.pk.e
      (rsaep sk.pk.n sk.pk.e (beNat (oaep H size sk.pk.modulusLen label seed msg))) N).run (badFormat g fuel d b) =
      beNat (oaep H size sk.pk.modulusLen label seed msg) := by
    refine Spec.Manger.attack_ok k1 h3 hm hN hNm ?_
    intro f hf
    have hcl := hclash _ hf
    clear hclash hf
    generalize beNat (oaep H size sk.pk.modulusLen label seed msg) = m at *
    have hq : beNat (Manger.question sk.pk.modulusLen sk.pk.n sk.pk.e (rsaep sk.pk.n sk.pk.e m) f) = (f * m) ^ sk.pk.e % sk.pk.n := by
      rw [Spec.Manger.question, Spec.beNat_toBE, Nat.mod_eq_of_lt (Nat.lt_trans (Nat.mod_lt _ hn) k1), rsaep, Nat.mul_mod, Nat.mod_mod, ← Nat.mul_mod, mul_pow]
    have hdec : rsadp sk.pk.n sk.d (beNat (Manger.question sk.pk.modulusLen sk.pk.n sk.pk.e (rsaep sk.pk.n sk.pk.e m) f)) = f * m % sk.pk.n := by
      rw [hq, rsadp, ← Nat.pow_mod, ← pow_mul]
      exact validKey_pow hv (f * m)
    have hql : (Manger.question sk.pk.modulusLen sk.pk.n sk.pk.e (rsaep sk.pk.n sk.pk.e m) f).length = sk.pk.modulusLen := Spec.length_toBE _ _
    have hqn : beNat (Manger.question sk.pk.modulusLen sk.pk.n sk.pk.e (rsaep sk.pk.n sk.pk.e m) f) ≤ sk.pk.n := by
      rw [hq]; exact Nat.le_of_lt (Nat.mod_lt _ hn)
    generalize Manger.question sk.pk.modulusLen sk.pk.n sk.pk.e (rsaep sk.pk.n sk.pk.e m) f = q at *
    obtain ⟨b1, b2, b3, b4⟩ := hb q
    have key := (C97_text_exact L hs g fuel sk hv hkc he (b q) b1 b3 (by rw [b2]; exact hlabl) b4 hk (by omega) q
      (fun h => by rw [h] at hql; simp at hql; omega) (by omega) hqn).1
    rw [b2, hdec] at key
    rw [hdec] at hcl
    rw [or_iff_left hcl] at key
    unfold badFormat
    rw [Bool.eq_iff_iff, beq_iff_eq, decide_eq_true_iff]
    exact key
  refine ⟨by rw [hrun, toBE_em hel]; exact OAEP.oaepRead_oaep L.length hs hsd, ?_⟩
  refine Nat.le_trans (Spec.Manger.length_asked _ _) (Nat.le_trans Spec.Manger.attack_depth ?_)
  rw [Nat.mul_left_comm, Nat.mul_assoc]

end

/-- A hash function for the example: one byte. -/
def toyHash (m : Bytes) : Bytes := [m.foldl (fun a x => 5#8 * a + x * x + 0x33#8) 0x2a#8]

/-- An object that collects what is written. -/
def toyDigest : Digest Bytes where
  blockSize := fun _ => none
  bitsLen := fun _ => 8
  write := fun s x => .ok (s ++ x)
  checksum := fun s => .ok (s, toyHash s)
  reset := fun _ => .ok []

theorem toyDigest_lawful : LawfulDigest toyDigest toyHash none 1 (fun s m => s = m) (fun s m => s = m) where
  write := by rintro s m x rfl -; exact ⟨_, rfl, rfl⟩
  checksum := by rintro s m rfl -; exact ⟨_, rfl, rfl⟩
  again := by rintro s m rfl; rfl
  reset := fun s m _ => ⟨_, rfl, rfl⟩
  blockSize := fun s m _ => rfl
  bitsLen := fun s m _ => rfl
  length := fun m => rfl

/-- A key of five bytes. -/
def demoKey5 : RSA.PrivateKey := ⟨⟨12931358777, 17⟩, 16385, [92849, 139273], Precomputed.new 92849 139273 16385 []⟩

theorem demoKey5_valid : ValidKey demoKey5.pk.n demoKey5.pk.e demoKey5.d demoKey5.primes where
  two := by decide
  prime := by intro p hp; simp only [demoKey5, List.mem_cons, List.not_mem_nil, or_false] at hp; rcases hp with rfl | rfl <;> norm_num
  odd := by intro p hp; simp only [demoKey5, List.mem_cons, List.not_mem_nil, or_false] at hp; rcases hp with rfl | rfl <;> decide
  distinct := by decide
  prod := by decide
  inv := by intro p hp; simp only [demoKey5, List.mem_cons, List.not_mem_nil, or_false] at hp; rcases hp with rfl | rfl <;> decide

def toyOaep : OAEP.Obj Unit Bytes := ⟨.pri demoKey5, [], (), [1#8, 2#8], true⟩

/-- The hypotheses are met: the message `a` under the label `01 02`; the receiver's object is always in the same state here. -/
example : ∃ t : Spec.Ask Nat, t = Manger.attack 5 demoKey5.pk.n demoKey5.pk.e
      (rsaep demoKey5.pk.n demoKey5.pk.e (beNat (oaep toyHash 1 5 [1#8, 2#8] [0x37#8] [0x61#8]))) 16 ∧
    oaepRead toyHash 1 (toBE 5 (t.run (badFormat wordRng 1 toyDigest fun _ => toyOaep))) = [0x61#8] := by
  have hl : demoKey5.pk.modulusLen = 5 := by decide +kernel
  have := C97_refuted toyDigest_lawful (by decide) wordRng 1 demoKey5 demoKey5_valid (Or.inr ⟨_, _, _, rfl, rfl⟩) rfl [1#8, 2#8] (fun _ => toyOaep)
    (fun _ => ⟨rfl, rfl, ⟨[], Or.inl rfl⟩, fun _ => Or.inr (Or.inl (by decide +kernel))⟩) (by decide) (by rw [hl]; decide) (by rw [hl]; decide +kernel)
    [0x37#8] [0x61#8] rfl (by rw [hl]; decide) 16 (by decide) (by rw [hl]; decide +kernel) _ rfl (by rw [hl]; decide +kernel)
  rw [hl] at this
  exact ⟨_, rfl, this.1⟩

end Verif.Props
