import Verif.Proof.ZUCMacExact
import Verif.Props.ZUC

/-! C40 in full: what the ZUC MAC object returns in every history -/

namespace Verif.Props
open Verif Verif.Model

/-- `t` plus the sum of `z_{32 w + i}` over the bits `i` of `m` that are set: the hash of 128-EIA3, computed with the key stream from word `w` on. -/
def hashFrom (key iv : Bytes) (w : Nat) (m : Bytes) (t : BitVec 32) : BitVec 32 :=
  (List.range (8 * m.length)).foldl (fun t i => if Spec.ZUC.msgBit m i then t ^^^ Spec.ZUC.z key iv (32 * w + i) else t) t

/-- What is returned in a history, for an object that has taken `next` words of the key stream so far, the last `write` of which ended in word `base`
(`none`: nothing written), with `bits` bits written and the sum `t`:
every `write` starts two words behind the word in which the `write` before it ended (or one more, if a tag was taken in between whose length was not
a multiple of 32 bits); every `checksum` adds a mask to the sum, which stays there. -/
def macTags (key iv : Bytes) : Nat → Option Nat → Nat → BitVec 32 → List DOp → List Bytes
  | _, _, _, _, [] => []
  | next, _, bits, t, .write m :: ops =>
    macTags key iv (next + m.length / 4 + 2) (some (next + m.length / 4)) (bits + 8 * m.length) (hashFrom key iv next m t) ops
  | next, none, bits, t, .checksum :: ops => be32 t :: macTags key iv next none bits t ops
  | next, some b, bits, t, .checksum :: ops =>
    if bits % 32 = 0 then
      let t := t ^^^ Spec.ZUC.word key iv b ^^^ Spec.ZUC.word key iv (b + 1)
      be32 t :: macTags key iv next (some b) bits t ops
    else
      let t := t ^^^ Spec.ZUC.z key iv (32 * b + bits % 32) ^^^ Spec.ZUC.word key iv next
      be32 t :: macTags key iv (next + 1) (some b) bits t ops
  | _, _, _, _, .reset :: ops => macTags key iv 0 none 0 0#32 ops

theorem runMac_at {key iv : Bytes} (hk : key.length = 16) (hv : iv.length = 16) : ∀ (ops : List DOp) (s : ZUCMac.State) (next bits : Nat)
    (base : Option Nat) (t : BitVec 32), ZUCMac.At s key iv next base bits t →
    ∃ s', runDigest ZUCMac.digest s ops = .ok (s', macTags key iv next base bits t ops)
  | [], s, next, bits, base, t, h => ⟨s, by cases base <;> rfl⟩
  | .write m :: ops, s, next, bits, base, t, h => by
    obtain ⟨s1, e1, h1⟩ := ZUCMac.write_at h m
    obtain ⟨s2, e2⟩ := runMac_at hk hv ops s1 _ _ _ _ h1
    refine ⟨s2, ?_⟩
    have e3 : runDigest ZUCMac.digest s (.write m :: ops) = runDigest ZUCMac.digest s1 ops := by
      simp only [runDigest, ZUCMac.digest, e1, bind, Except.bind]
    rw [e3, e2]
    cases base <;> rfl
  | .checksum :: ops, s, next, bits, none, t, h => by
    obtain ⟨s1, e1, h1⟩ := ZUCMac.checksum_none h
    obtain ⟨s2, e2⟩ := runMac_at hk hv ops s1 _ _ _ _ h1
    refine ⟨s2, ?_⟩
    simp only [runDigest, bind, Except.bind, e2, show ZUCMac.digest.checksum s = _ from e1, macTags]
  | .checksum :: ops, s, next, bits, some b, t, h => by
    by_cases hr : bits % 32 = 0
    · obtain ⟨s1, e1, h1⟩ := ZUCMac.checksum_aligned h hr
      obtain ⟨s2, e2⟩ := runMac_at hk hv ops s1 _ _ _ _ h1
      refine ⟨s2, ?_⟩
      simp only [runDigest, bind, Except.bind, e2, show ZUCMac.digest.checksum s = _ from e1, macTags, if_pos hr]
    · obtain ⟨s1, e1, h1⟩ := ZUCMac.checksum_rest h hr
      obtain ⟨s2, e2⟩ := runMac_at hk hv ops s1 _ _ _ _ h1
      refine ⟨s2, ?_⟩
      simp only [runDigest, bind, Except.bind, e2, show ZUCMac.digest.checksum s = _ from e1, macTags, if_neg hr]
  | .reset :: ops, s, next, bits, base, t, h => by
    obtain ⟨s1, e1, h1⟩ := ZUCMac.reset_alive h.alive hk hv
    obtain ⟨s2, e2⟩ := runMac_at hk hv ops s1 _ _ _ _ h1.at
    refine ⟨s2, ?_⟩
    have e3 : runDigest ZUCMac.digest s (.reset :: ops) = runDigest ZUCMac.digest s1 ops := by
      simp only [runDigest, ZUCMac.digest, e1, bind, Except.bind]
    rw [e3, e2]
    cases base <;> rfl

/-- C40, exactly what is returned in every history of `write`, `checksum` and `reset` calls, for every key. No call fails. -/
theorem C40_exact (count : BitVec 32) (bearer : Byte) (direction : Bool) (ck : Bytes) (hk : ck.length = 16) (ops : List DOp) :
    ∃ s, ZUCMac.fromSlice count bearer direction ck = .ok s ∧
      outputs (runDigest ZUCMac.digest s ops) =
        some (macTags ck (Spec.ZUC.eia3Iv count (bearer.setWidth 5) (BitVec.ofBool direction)) 0 none 0 0#32 ops) := by
  obtain ⟨s, e, h⟩ := ZUCMac.fromSlice_fresh count bearer direction hk
  obtain ⟨s', e'⟩ := runMac_at hk (ZUCMac.length_eia3Iv count (bearer.setWidth 5) (BitVec.ofBool direction)) ops s _ _ _ _ h.at
  exact ⟨s, e, by rw [e']; rfl⟩

/-- C40: the tag of a message written in two pieces, for every key and all pieces: the second piece is hashed with the key stream from two words behind the
end of the first one. -/
theorem C40_two_writes (count : BitVec 32) (bearer : Byte) (direction : Bool) (ck : Bytes) (hk : ck.length = 16) (a b : Bytes)
    (ha : a.length % 4 = 0) (hb : b.length % 4 = 0) :
    let iv := Spec.ZUC.eia3Iv count (bearer.setWidth 5) (BitVec.ofBool direction)
    let w := a.length / 4 + 2
    ∃ s, ZUCMac.fromSlice count bearer direction ck = .ok s ∧
      outputs (runDigest ZUCMac.digest s [.write a, .write b, .checksum]) =
        some [be32 (hashFrom ck iv w b (hashFrom ck iv 0 a 0#32) ^^^ Spec.ZUC.word ck iv (w + b.length / 4) ^^^ Spec.ZUC.word ck iv (w + b.length / 4 + 1))] := by
  intro iv w
  obtain ⟨s, e, h⟩ := C40_exact count bearer direction ck hk [.write a, .write b, .checksum]
  refine ⟨s, e, ?_⟩
  rw [h]
  simp only [macTags, show (0 + 8 * a.length + 8 * b.length) % 32 = 0 by omega, if_true]
  have : 0 + a.length / 4 + 2 = w := by omega
  rw [this]

example : zucMacRun [.write [0, 0, 0, 0], .write [0, 0, 0, 0], .checksum] ≠ zucMacRun [.write [0, 0, 0, 0, 0, 0, 0, 0], .checksum] := by decide +kernel

/-- The history theorem covers mixed histories. -/
example : (zucMacRun [.write [1], .checksum, .write [2, 3, 4, 5, 6], .checksum, .reset, .checksum]).isSome = true := by decide +kernel

end Verif.Props
