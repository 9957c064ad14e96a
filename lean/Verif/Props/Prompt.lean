import Verif.Proof.Prompt
import Verif.Proof.Toy

/-! C126: what a stream has released between two writes. -/

namespace Verif.Props
open Model Spec
variable {c : BlockCipher} {E D : Bytes → Bytes} {κ : Type} {cops : CounterOps κ}

private theorem xlen {a b : Bytes} {n : Nat} (h1 : a.length = n) (h2 : b.length = n) : (xorBytes a b).length = n := by
  rw [length_xorBytes]; omega

/-- C126, ECB encryption: every whole block written has been released, encrypted; less than a block is kept. -/
theorem C126_ecb_encrypt (h : Lawful c E D) (p : Padding) :
    Prompt (ECB.encStream c p) ECB.init (fun l => c.bs * (l / c.bs)) (ECB.encrypt c .empty) :=
  prompt_ge (P := fun _ => True) h.pos (fun _ b _ hb => ⟨trivial, h.lenE b hb⟩) trivial (fun _ _ _ d hR => ECB.encWrite_inv h d hR)
    (fun bs hb => by
      have := ECB.encrypt_eq (p := .empty) (t := []) h hb h.pos .nil rfl
      rw [ECB.runPure_encF]
      simpa using this)

/-- C126, ECB decryption: every whole block but the last has been released, decrypted; at most one block is kept. -/
theorem C126_ecb_decrypt (h : Lawful c E D) (p : Padding) :
    Prompt (ECB.decStream c p) ECB.init (fun l => c.bs * ((l - 1) / c.bs)) (ECB.decrypt c .empty) :=
  prompt_gt (P := fun _ => True) h.pos (fun _ b _ hb => ⟨trivial, h.lenD b hb⟩) trivial (fun _ _ _ d hR => ECB.decWrite_inv h d hR)
    (fun bs hb => by rw [ECB.decrypt_eq h hb, ECB.runPure_encF]; rfl)

/-- C126, CBC encryption. -/
theorem C126_cbc_encrypt (h : Lawful c E D) (p : Padding) (iv : Bytes) (hiv : iv.length = c.bs) :
    Prompt (CBC.encStream c p iv) (CBC.init iv) (fun l => c.bs * (l / c.bs)) (CBC.encrypt c .empty iv) :=
  prompt_ge (P := fun v => v.length = c.bs) h.pos (fun _ b hv hb => ⟨h.lenE _ (xlen hb hv), h.lenE _ (xlen hb hv)⟩) hiv
    (fun _ _ _ d hR => CBC.encWrite_inv h hiv d hR)
    (fun bs hb => by
      have := CBC.encrypt_eq (p := .empty) (t := []) h hiv hb h.pos .nil rfl
      rw [CBC.runPure_encF_snd]
      simpa [ecb] using this)

/-- C126, CBC decryption. -/
theorem C126_cbc_decrypt (h : Lawful c E D) (p : Padding) (iv : Bytes) (hiv : iv.length = c.bs) :
    Prompt (CBC.decStream c p iv) (CBC.init iv) (fun l => c.bs * ((l - 1) / c.bs)) (CBC.decrypt c .empty iv) :=
  prompt_gt (P := fun v => v.length = c.bs) h.pos (fun _ b hv hb => ⟨hb, xlen (h.lenD b hb) hv⟩) hiv
    (fun _ _ _ d hR => CBC.decWrite_inv h hiv d hR)
    (fun bs hb => by rw [CBC.decrypt_eq h hiv hb, CBC.runPure_decF_snd]; rfl)

/-- C126, CFB encryption: every whole segment has been released. -/
theorem C126_cfb_encrypt (h : Lawful c E D) (s : Nat) (hs0 : 0 < s) (hs : s ≤ c.bs) (p : Padding) (iv : Bytes) (hiv : iv.length = c.bs) :
    Prompt (CFB.encStream c p s iv) (CFB.init iv) (fun l => s * (l / s)) (CFB.encrypt c .empty s iv) :=
  prompt_ge (P := fun v => v.length = c.bs) hs0
    (fun v b hv hb => ⟨(CFB.encStep_ok h hs v b hv hb).2, xlen hb (by rw [List.length_take, h.lenE v hv]; omega)⟩) hiv
    (fun _ _ _ d hR => CFB.encWrite_inv h hs0 hs hiv d hR)
    (fun bs hb => by
      have := CFB.encrypt_eq (p := .empty) (t := []) (rem := []) h hs0 hs hiv hb hs0 .nil hs0 rfl
      rw [CFB.runPure_encF_snd]
      simpa using this)

/-- C126, CFB decryption. -/
theorem C126_cfb_decrypt (h : Lawful c E D) (s : Nat) (hs0 : 0 < s) (hs : s ≤ c.bs) (p : Padding) (iv : Bytes) (hiv : iv.length = c.bs) :
    Prompt (CFB.decStream c p s iv) (CFB.init iv) (fun l => s * (l / s)) (CFB.decrypt c .empty s iv) :=
  prompt_ge (P := fun v => v.length = c.bs) hs0
    (fun v b hv hb => ⟨(CFB.decStep_ok h hs v b hv hb).2, xlen hb (by rw [List.length_take, h.lenE v hv]; omega)⟩) hiv
    (fun _ _ _ d hR => CFB.decWrite_inv h hs0 hs hiv d hR)
    (fun bs hb => by rw [CFB.decrypt_eq h hs0 hs hiv hb, CFB.runPure_decF_snd]; rfl)

/-- C126, OFB, both directions. -/
theorem C126_ofb (h : Lawful c E D) (iv : Bytes) (hiv : iv.length = c.bs) :
    Prompt (OFB.stream c iv) (OFB.init iv) (fun l => c.bs * (l / c.bs)) (OFB.encrypt c iv) :=
  prompt_ge (P := fun v => v.length = c.bs) h.pos (fun v b hv hb => ⟨h.lenE v hv, xlen hb (h.lenE v hv)⟩) hiv
    (fun _ _ _ d hR => OFB.write_inv h hiv d hR)
    (fun bs hb => by rw [OFB.encrypt_eq h hiv, OFB.runPure_stepF_snd h hiv hb])

/-- C126, CTR, both directions, with any counter that keeps delivering blocks. -/
theorem C126_ctr (h : Lawful c E D) (k : κ) (v : Nat → Bytes) (hv : ∀ i, cops.value (cops.reset k) i = some (v i) ∧ c.bs ≤ (v i).length) :
    Prompt (CTR.stream c cops) (CTR.init cops k) (fun l => c.bs * (l / c.bs)) (fun m => (CTR.encrypt c cops (cops.reset k) m).map Prod.snd) :=
  have hk : CTR.Good c cops (cops.reset k) := fun i => ⟨v i, hv i⟩
  prompt_ge (P := CTR.Good c cops) h.pos (fun w b hw hb => ⟨hw.next, xlen hb (h.lenE _ (CTR.length_input hw 0))⟩) hk
    (fun _ _ _ d hR => CTR.write_inv h hk d hR)
    (fun bs hb => by
      rw [CTR.runPure_stepF_snd h hk hb, show CTR.encrypt c cops (cops.reset k) bs.flatten = _ from CTR.encryptInner_eq h hk [] bs.flatten]
      rfl)

/-! Concrete runs: five bytes in three writes; the encrypting stream has released four, the decrypting stream, given four, has released two. -/

example : feed (ECB.encStream (Toy.cipher 2) .empty) ECB.init [([1], true), ([2, 3], true), ([4, 5], false)] =
    .ok ([3, 2], ⟨[5], [5, 4], ()⟩) ∧ ECB.encrypt (Toy.cipher 2) .empty [1, 2, 3, 4] = .ok [3, 2, 5, 4] := by decide
example : feed (CBC.decStream (Toy.cipher 2) .empty [5, 6]) (CBC.init [5, 6]) [([5], true), ([5, 2], true), ([7], false)] =
    .ok ([1, 2], ⟨[2, 7], [], [5, 5]⟩) ∧ CBC.decrypt (Toy.cipher 2) .empty [5, 6] [5, 5] = .ok [1, 2] := by decide
example : ∀ i, DefaultCounter.ops.value (DefaultCounter.ops.reset ⟨16, [0, 0], none⟩) i = some (toBE 2 (0 + i)) ∧
    (Toy.cipher 2).bs ≤ (toBE 2 (0 + i)).length := fun i =>
  ⟨DefaultCounter.ops_value (⟨16, [0, 0], none⟩ : DefaultCounter) (by decide) rfl i, by rw [length_toBE]; decide⟩

end Verif.Props
