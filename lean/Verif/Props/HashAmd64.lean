import Verif.Proof.HashAmd64

/-!
# C76: the hash back ends for x86

What the three files would compute if their `mod` lines were enabled, against the portable back ends (which C23 to C25 prove to be the standard functions).
-/

namespace Verif.Props
open Verif.Model

/-- C76 for MD5: for every chaining value and all data the SSE2 back end does what the portable one does. -/
theorem C76_md5_backend (h : MD5.Quad) (data : Bytes) : Amd64.mdUpdate h data = MD.update MD5.params h data := Amd64.mdUpdate_eq h data

/-- C76 for SHA-256 and SHA-224: for every chaining value and any number of whole blocks the SHA-NI back end does what the portable one does. -/
theorem C76_sha256_backend (h : SHA2.Eight 32) (data : Bytes) (hd : data.length % 64 = 0) :
    MD.update SHA2.params256 h data = .ok (Amd64.sha256Update h data) := by
  rw [Amd64.sha256Update_eq, MD.update, show SHA2.params256.bs = 64 from rfl, if_pos hd]

/-- C76 for SHA-1, the part that holds: for every chaining value and every single block the first four words are right. -/
theorem C76_sha1_backend_partial (h : SHA1.Five) (data : Bytes) (hd : data.length = 64) :
    ∃ r, MD.update SHA1.params h data = .ok r ∧ (Amd64.sha1Update h data).a = r.a ∧ (Amd64.sha1Update h data).b = r.b ∧
      (Amd64.sha1Update h data).c = r.c ∧ (Amd64.sha1Update h data).d = r.d := by
  refine ⟨SHA1.compress h data, ?_, ?_⟩
  · rw [MD.update, show SHA1.params.bs = 64 from rfl, if_pos (by omega), hd]
    show Except.ok (SHA1.compress h (data.take 64)) = _
    rw [List.take_of_length_le (by omega)]
  · rw [Amd64.sha1Update_one h data hd]
    exact ⟨rfl, rfl, rfl, rfl⟩

/-- The one block of the padded message "abc". -/
def abcBlock : Bytes := [0x61#8, 0x62#8, 0x63#8, 0x80#8] ++ List.replicate 59 0#8 ++ [0x18#8]

/-- C76 is false of the code for SHA-1: the portable back end computes the published digest a9993e36 4706816a ba3e2571 7850c26c 9cd0d89d of "abc",
this one gets the last word wrong (inside the closure `let e0` hides the variable that is stored). -/
theorem C76_sha1_backend_refuted :
    MD.update SHA1.params SHA1.init abcBlock = .ok ⟨0xa9993e36#32, 0x4706816a#32, 0xba3e2571#32, 0x7850c26c#32, 0x9cd0d89d#32⟩ ∧
    Amd64.sha1Update SHA1.init abcBlock = ⟨0xa9993e36#32, 0x4706816a#32, 0xba3e2571#32, 0x7850c26c#32, 0x63188fe4#32⟩ := by
  constructor <;> decide +kernel

/-- Two blocks meet the hypothesis of the SHA-256 theorem, and one that of the SHA-1 theorem. -/
example : (abcBlock ++ abcBlock).length % 64 = 0 ∧ abcBlock.length = 64 := by decide +kernel

/-- The SSE2 back end refuses what the portable one refuses, and computes on whole blocks: MD5 of the empty message. -/
example : Amd64.mdUpdate MD5.init [1#8] = .error .panic ∧
    (Amd64.mdUpdate MD5.init (0x80#8 :: List.replicate 63 0#8)).map MD5.out = .ok (Spec.MD5.hash []) := by decide +kernel

end Verif.Props
