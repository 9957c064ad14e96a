import Verif.Proof.Robust
import Verif.Proof.Toy
import Verif.Props.CFB
import Verif.Props.CTR

/-!
# C72: no input makes a block mode panic or loop

`c` is any lawful block cipher (C16, C18, C19, C20 show that DES, TDES, SM4 and AES are), `p` any padding. The initial vector may have any length.
-/

namespace Verif.Props
open Model Spec

variable {c : BlockCipher} {E D : Bytes → Bytes}

/-- C72, ECB one-shot calls: every input ends with `Ok` or `Err`. -/
theorem C72_ecb (h : Lawful c E D) (p : Padding) (m : Bytes) : Ends (ECB.encrypt c p m) ∧ Ends (ECB.decrypt c p m) := by
  have he : ∀ s b, Ends (ECB.encStep c s b) := fun s b => (Ends.encrypt h b).bind fun _ _ => .ok _
  have hd : ∀ s b, Ends (ECB.decStep c s b) := fun s b => (Ends.decrypt h b).bind fun _ _ => .ok _
  constructor
  · unfold ECB.encrypt
    refine (Ends.whileLen' h.pos (contGe_zero h.pos) he _ _ _).bind fun ⟨_, _, rest⟩ _ => ?_
    exact (Ends.whileLen' h.pos contNe_zero he _ _ _).bind fun ⟨_, _, _⟩ _ => .ok _
  · unfold ECB.decrypt
    refine Ends.ite (fun _ => .err _) fun _ => ?_
    exact (Ends.whileLen' h.pos (contGe_zero h.pos) hd _ _ _).bind fun ⟨_, _, _⟩ _ => Ends.unpad _ _

/-- C72, ECB streams: every client ends with `Ok` or `Err`. -/
theorem C72_ecb_streams (h : Lawful c E D) (p : Padding) (ops : List (Bytes × Bool)) :
    Ends (runStream (ECB.encStream c p) ECB.init ops) ∧ Ends (runStream (ECB.decStream c p) ECB.init ops) := by
  have he : ∀ s b, Ends (ECB.encStep c s b) := fun s b => (Ends.encrypt h b).bind fun _ _ => .ok _
  have hd : ∀ s b, Ends (ECB.decStep c s b) := fun s b => (Ends.decrypt h b).bind fun _ _ => .ok _
  constructor
  · obtain ⟨o, s, h1, -⟩ := feed_inv (str := ECB.encStream c p) (s := ECB.init) (RGe (ECB.encF E) c.bs ())
      (fun m o s d hR => ECB.encWrite_inv h d hR) (fun _ _ _ hR => hR.draw) ops (RGe.init h.pos)
    unfold runStream
    rw [h1]
    refine Ends.bind (.ok _) fun ⟨o, s⟩ _ => Ends.bind ?_ fun ⟨_, _⟩ _ => .ok _
    exact (Ends.whileLen' h.pos contNe_zero he _ _ _).bind fun ⟨_, _, _⟩ _ => .ok _
  · refine Ends.runStream (fun _ => True) (fun s d _ => ?_) (fun _ _ _ _ _ => trivial) (fun _ _ => trivial) (fun s _ => ?_) _ _ trivial
    · refine Ends.ite (fun _ => .ok _) fun _ => ?_
      exact (Ends.whileLen' h.pos (contGt_zero _) hd _ _ _).bind fun ⟨_, _, _⟩ _ => .ok _
    · exact (Ends.decrypt h _).bind fun _ _ => (Ends.unpad _ _).bind fun _ _ => .ok _

/-- C72, CBC one-shot calls. -/
theorem C72_cbc (h : Lawful c E D) (p : Padding) (iv m : Bytes) : Ends (CBC.encrypt c p iv m) ∧ Ends (CBC.decrypt c p iv m) := by
  constructor
  · unfold CBC.encrypt
    refine (Ends.whileLen' h.pos (contGe_zero h.pos) (fun s b => (Ends.encrypt h _).bind fun _ _ => .ok _) _ _ _).bind fun ⟨_, _, rest⟩ _ => ?_
    exact (Ends.whileLen' h.pos contNe_zero (fun s b => (Ends.encrypt h _).bind fun _ _ => .ok _) _ _ _).bind fun ⟨_, _, _⟩ _ => .ok _
  · unfold CBC.decrypt
    refine Ends.ite (fun _ => .err _) fun _ => ?_
    exact (Ends.whileLen' h.pos contNe_zero (fun s b => (Ends.decrypt h _).bind fun _ _ => .ok _) _ _ _).bind fun ⟨_, _, _⟩ _ => Ends.unpad _ _

/-- C72, CBC streams with an initial vector of one block (all the constructors accept, C59). -/
theorem C72_cbc_streams (h : Lawful c E D) (p : Padding) (iv : Bytes) (hiv : iv.length = c.bs) (ops : List (Bytes × Bool)) :
    Ends (runStream (CBC.encStream c p iv) (CBC.init iv) ops) ∧ Ends (runStream (CBC.decStream c p iv) (CBC.init iv) ops) := by
  constructor
  · obtain ⟨o, s, h1, -⟩ := feed_inv (str := CBC.encStream c p iv) (s := CBC.init iv) (RGe (CBC.encF E) c.bs iv)
      (fun m o s d hR => CBC.encWrite_inv h hiv d hR) (fun _ _ _ hR => hR.draw) ops (RGe.init h.pos)
    unfold runStream
    rw [h1]
    refine Ends.bind (.ok _) fun ⟨o, s⟩ _ => Ends.bind ?_ fun ⟨_, _⟩ _ => .ok _
    exact (Ends.whileLen' h.pos contNe_zero (fun s b => (Ends.encrypt h _).bind fun _ _ => .ok _) _ _ _).bind fun ⟨_, _, _⟩ _ => .ok _
  · refine Ends.runStream (fun _ => True) (fun s d _ => ?_) (fun _ _ _ _ _ => trivial) (fun _ _ => trivial) (fun s _ => ?_) _ _ trivial
    · refine Ends.ite (fun _ => .ok _) fun _ => ?_
      exact (Ends.whileLen' h.pos (contGt_zero _) (fun s b => (Ends.decrypt h _).bind fun _ _ => .ok _) _ _ _).bind fun ⟨_, _, _⟩ _ => .ok _
    · exact (Ends.decrypt h _).bind fun _ _ => (Ends.unpad _ _).bind fun _ _ => .ok _

/-- C72, CFB one-shot calls with any positive segment size. -/
theorem C72_cfb (h : Lawful c E D) (p : Padding) {s : Nat} (hs : 0 < s) (iv m : Bytes) :
    Ends (CFB.encrypt c p s iv m) ∧ Ends (CFB.decrypt c p s iv m) := by
  have he : ∀ ij dst data, Ends (CFB.encryptInner c s ij dst data) := fun ij dst data =>
    (Ends.whileLen' hs (contGe_zero hs) (fun s b => (Ends.encrypt h _).bind fun _ _ => .ok _) _ _ _).bind fun ⟨_, _, _⟩ _ => .ok _
  constructor
  · unfold CFB.encrypt
    exact (he _ _ _).bind fun ⟨_, _⟩ _ => (he _ _ _).bind fun ⟨_, _⟩ _ => .ok _
  · unfold CFB.decrypt
    split
    · exact .err _
    · rename_i hm
      refine Ends.bind ?_ fun ⟨_, _⟩ _ => Ends.unpad _ _
      refine Ends.bind ?_ fun ⟨_, _, _⟩ _ => .ok _
      -- every segment is whole
      have : ∀ (fuel : Nat) (ij dst data : Bytes), data.length < fuel → data.length % s = 0 →
          Ends (whileLen contNe s (CFB.decStep c s) fuel ij dst data) := by
        intro fuel
        induction fuel with
        | zero => intro _ _ _ hl; omega
        | succ fuel ih =>
          intro ij dst data hl hmod
          rw [whileLen]
          split
          case isFalse => exact .ok _
          case isTrue hc =>
            have hpos : 0 < data.length := by simpa [contNe] using hc
            have hge : s ≤ data.length := by
              rcases Nat.lt_or_ge data.length s with hlt | hge
              · rw [Nat.mod_eq_of_lt hlt] at hmod; omega
              · exact hge
            have hstep : Ends (CFB.decStep c s ij (data.take s)) := by
              refine (Ends.encrypt h ij).bind fun _ _ => ?_
              refine Ends.ite (fun hlt => ?_) fun _ => .ok _
              rw [List.length_take] at hlt; omega
            rcases hstep with ⟨⟨ij', o⟩, ho⟩ | ⟨k, hk⟩
            · rw [ho]
              refine ih ij' (dst ++ o) (data.drop s) (by simp; omega) ?_
              rw [List.length_drop, ← Nat.mod_eq_sub_mod hge, hmod]
            · rw [hk]; exact .err k
      exact this _ _ _ _ (by omega) (by omega)

/-- C72, CFB encrypting streams (the decrypting ones panic on a trailing partial segment, `C11_cfb_decrypt_panics`). -/
theorem C72_cfb_stream_encrypt_partial (h : Lawful c E D) (p : Padding) {s : Nat} (hs0 : 0 < s) (hs : s ≤ c.bs) (iv : Bytes) (hiv : iv.length = c.bs)
    (ops : List (Bytes × Bool)) : Ends (runStream (CFB.encStream c p s iv) (CFB.init iv) ops) := by
  obtain ⟨o, u, h1, -⟩ := feed_inv (str := CFB.encStream c p s iv) (s := CFB.init iv) (RGe (CFB.encF E s) s iv)
    (fun m o u d hR => CFB.encWrite_inv h hs0 hs hiv d hR) (fun _ _ _ hR => hR.draw) ops (RGe.init hs0)
  unfold runStream
  rw [h1]
  refine Ends.bind (.ok _) fun ⟨o, s⟩ _ => Ends.bind ?_ fun ⟨_, _⟩ _ => .ok _
  refine Ends.bind ?_ fun ⟨_, _⟩ _ => .ok _
  exact (Ends.whileLen' hs0 (contGe_zero hs0) (fun s b => (Ends.encrypt h _).bind fun _ _ => .ok _) _ _ _).bind fun ⟨_, _, _⟩ _ => .ok _

/-- C72 is false of the code for the CFB decrypting stream: with segments of two bytes or more some input makes it panic. -/
theorem C72_cfb_stream_decrypt_fails (h : Lawful c E D) (p : Padding) {s : Nat} (hs0 : 2 ≤ s) (hs : s ≤ c.bs) :
    ¬ ∀ iv (ops : List (Bytes × Bool)), iv.length = c.bs → Ends (runStream (CFB.decStream c p s iv) (CFB.init iv) ops) := by
  intro hall
  exact C11_cfb_decrypt_panics h hs0 hs p fun iv ops hiv => (hall iv ops hiv).ne_panic

/-- C72, OFB one-shot calls and streams. -/
theorem C72_ofb (h : Lawful c E D) (iv m : Bytes) (ops : List (Bytes × Bool)) :
    Ends (OFB.encrypt c iv m) ∧ Ends (OFB.decrypt c iv m) ∧ Ends (runStream (OFB.stream c iv) (OFB.init iv) ops) := by
  have he : ∀ ij dst data, Ends (OFB.encryptInner c ij dst data) := fun ij dst data =>
    (Ends.whileLen' h.pos (contGe_zero h.pos) (fun s b => (Ends.encrypt h _).bind fun _ _ => .ok _) _ _ _).bind fun ⟨_, _, _⟩ _ => .ok _
  have h1 : ∀ m, Ends (OFB.encrypt c iv m) := fun m => (he _ _ _).bind fun ⟨_, _⟩ _ => (Ends.encrypt h _).bind fun _ _ => .ok _
  refine ⟨h1 m, h1 m, ?_⟩
  refine Ends.runStream (fun _ => True) (fun s d _ => ?_) (fun _ _ _ _ _ => trivial) (fun _ _ => trivial) (fun s _ => ?_) _ _ trivial
  · exact Ends.ite (fun _ => .ok _) fun _ => (he _ _ _).bind fun ⟨_, _⟩ _ => .ok _
  · exact Ends.ite (fun _ => .ok _) fun _ => (Ends.encrypt h _).bind fun _ _ => .ok _

/-- C72, CTR one-shot calls and streams, for every counter `CTR::new` accepts, after any number `n` of values have been drawn from it. -/
theorem C72_ctr (h : Lawful c E D) (iv : Bytes) (bits : Nat) (k : DefaultCounter) (h1 : DefaultCounter.new iv bits = .ok k)
    (h2 : CTR.new c DefaultCounter.ops k = .ok k) (n : Nat) (m : Bytes) (ops : List (Bytes × Bool)) :
    Ends (CTR.encrypt c DefaultCounter.ops (DefaultCounter.ops.after k n) m) ∧
    Ends (CTR.decrypt c DefaultCounter.ops (DefaultCounter.ops.after k n) m) ∧
    Ends (runStream (CTR.stream c DefaultCounter.ops) (CTR.init DefaultCounter.ops (DefaultCounter.ops.after k n)) ops) := by
  have hv := C14_default_counter (c := c) iv bits k h1 h2
  have hg : CTR.Good c DefaultCounter.ops k := fun i => ⟨_, (hv i).1, (hv i).2.1⟩
  have hg' := hg.after n
  refine ⟨?_, ?_, ?_⟩
  · rw [CTR.encrypt, CTR.encryptInner_eq h hg']; exact .ok _
  · rw [CTR.decrypt, CTR.encryptInner_eq h hg']; exact .ok _
  · have hr : DefaultCounter.ops.reset (DefaultCounter.ops.after k n) = k := by
      unfold DefaultCounter.new at h1
      split at h1
      · cases h1
      · rename_i hlen
        injection h1 with h1
        subst h1
        cases n with
        | zero => rfl
        | succ n => rw [DefaultCounter.ops_after _ (by simp only; omega) rfl n]; rfl
    obtain ⟨s', hs⟩ := C14_ctr_stream (ops := DefaultCounter.ops) h (DefaultCounter.ops.after k n)
      (fun i => toBE ((bits + 7) / 8) (beNat iv + i)) (by rw [hr]; exact fun i => ⟨(hv i).1, (hv i).2.1⟩) ops
    rw [hs]; exact .ok _

/-- C72, the ciphers themselves: a block of the wrong length is refused, never a panic. -/
theorem C72_block (h : Lawful c E D) (b : Bytes) :
    Ends (c.encrypt b) ∧ Ends (c.decrypt b) ∧ (b.length ≠ c.bs → Refused (c.encrypt b) ∧ Refused (c.decrypt b)) :=
  ⟨Ends.encrypt h b, Ends.decrypt h b, fun hb => ⟨⟨_, h.encErr b hb⟩, ⟨_, h.decErr b hb⟩⟩⟩

example : ECB.decrypt (Toy.cipher 4) (.default 4) [1, 2, 3] = .error (.err .invalidParameter) := by decide
example : ECB.decrypt (Toy.cipher 4) (.default 4) [1, 2, 3, 4] = .error (.err .unpaddingNotMatch) := by decide
example : runStream (ECB.decStream (Toy.cipher 4) (.default 4)) ECB.init [([1, 2, 3], true)] = .error (.err .invalidParameter) := by decide
example : Lawful (Toy.cipher 4) Toy.E Toy.D := Toy.lawful 4 (by decide)
example : DefaultCounter.new [1, 2] 32 = .ok ⟨32, [1, 2], none⟩ ∧ CTR.new (Toy.cipher 4) DefaultCounter.ops ⟨32, [1, 2], none⟩ = .ok ⟨32, [1, 2], none⟩ := by
  decide

end Verif.Props
