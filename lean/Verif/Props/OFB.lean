import Verif.Proof.OFB
import Verif.Proof.Toy

/-! Property C13 -/

namespace Verif.Props
open Verif.Model Verif.Spec

variable {c : BlockCipher} {E D : Bytes → Bytes}

/-- C13: one-shot OFB is the textbook stream cipher, preserves length, and is undone by decryption. -/
theorem C13_ofb_roundtrip (h : Lawful c E D) (iv m : Bytes) (hiv : iv.length = c.bs) :
    OFB.encrypt c iv m = .ok (ofb E c.bs iv m) ∧ (ofb E c.bs iv m).length = m.length ∧
      OFB.decrypt c iv (ofb E c.bs iv m) = .ok m := by
  refine ⟨OFB.encrypt_eq h hiv m, length_streamXor _ h.pos (OFB.length_ofbBlock h hiv) m, ?_⟩
  rw [OFB.decrypt, OFB.encrypt_eq h hiv]
  exact congrArg _ (streamXor_invol _ h.pos (OFB.length_ofbBlock h hiv) m)

example : OFB.encrypt (Toy.cipher 2) [1, 2] [10, 20, 30] = .ok [9, 22, 29] := by decide

/-- C13: streams give the one-shot output under any chunking and draw-off schedule and end ready for a new message from the same IV.
`OFBEncrypt` and `OFBDecrypt` have the same code. -/
theorem C13_ofb_stream (h : Lawful c E D) (iv : Bytes) (hiv : iv.length = c.bs) (ops : List (Bytes × Bool)) :
    runStream (OFB.stream c iv) (OFB.init iv) ops = .ok (ofb E c.bs iv (written ops), OFB.init iv) := by
  obtain ⟨out, s', h1, h2, h3⟩ := runStream_inv (str := OFB.stream c iv) (s := OFB.init iv)
    (RGe (OFB.stepF E) c.bs iv) (fun m o s d hR => OFB.write_inv h hiv d hR) (fun _ _ _ hR => hR.draw) ops
    (RGe.init h.pos) (fun out s' => out = ofb E c.bs iv (written ops) ∧ s' = OFB.init iv) (by
      rintro o s ⟨blocks, hb, hm, ht, hst, ho⟩
      have hsl : s.st.length = c.bs := by rw [hst]; exact OFB.stepF_inv h hiv hb
      rw [hm, OFB.ofb_tail h hiv hb ht, ← OFB.runPure_stepF_snd h hiv hb, ← ho, ← hst]
      show ∃ out s', OFB.finish c iv s = _ ∧ _
      unfold OFB.finish
      by_cases hd : s.data = []
      · rw [if_pos (by simp [hd])]
        exact ⟨_, _, rfl, by simp [hd], rfl⟩
      · rw [if_neg (by simpa using hd), h.enc _ hsl]
        refine ⟨_, _, rfl, ?_, rfl⟩
        rw [xorBytes_take_right, List.append_assoc])
  rw [h1, h2, h3]

example : runStream (OFB.stream (Toy.cipher 2) [1, 2]) (OFB.init [1, 2]) [([10], true), ([20, 30], false)] =
    .ok ([9, 22, 29], OFB.init [1, 2]) := by decide

end Verif.Props
