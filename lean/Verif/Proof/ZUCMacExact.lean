import Verif.Proof.ZUCMac

/-! Helper lemmas: the ZUC MAC object from any state on -/

namespace Verif.Model.ZUCMac
open Verif

variable {key iv : Bytes}

/-- The sum of `z_{32 w + i}` over the set bits among the first `n`, added to `t`. -/
def sumFrom (key iv : Bytes) (w : Nat) (m : Bytes) (n : Nat) (t : BitVec 32) : BitVec 32 :=
  (List.range n).foldl (fun t i => if Spec.ZUC.msgBit m i then t ^^^ Spec.ZUC.z key iv (32 * w + i) else t) t

theorem loop_from (m : Bytes) (w : Nat) {s : State} (hz : ZUC.R s.zuc (Spec.ZUC.stateAt key iv (w + 2))) (h0 : s.key0 = Spec.ZUC.word key iv w)
    (h1 : s.key1 = Spec.ZUC.word key iv (w + 1)) (n : Nat) :
    ∃ z, (List.range n).foldl (step m) s =
      { s with zuc := z, key0 := Spec.ZUC.word key iv (w + n / 32), key1 := Spec.ZUC.word key iv (w + n / 32 + 1), t := sumFrom key iv w m n s.t } ∧
      ZUC.R z (Spec.ZUC.stateAt key iv (w + n / 32 + 2)) := by
  induction n with
  | zero => exact ⟨s.zuc, by simp [sumFrom, ← h0, ← h1], hz⟩
  | succ n ih =>
    obtain ⟨z, e, hz'⟩ := ih
    rw [List.range_succ, List.foldl_append, e]
    simp only [List.foldl_cons, List.foldl_nil]
    have et : sumFrom key iv w m (n + 1) s.t =
        if Spec.ZUC.msgBit m n then sumFrom key iv w m n s.t ^^^ Spec.ZUC.z key iv (32 * w + n) else sumFrom key iv w m n s.t := by
      unfold sumFrom
      rw [List.range_succ, List.foldl_append]
      rfl
    have ek := keyWord_eq (key := key) (iv := iv) (32 * w + n)
    rw [show (32 * w + n) / 32 = w + n / 32 by omega, show (32 * w + n) % 32 = n % 32 by omega] at ek
    rw [et]
    unfold step
    simp only [isOne_eq, ek]
    obtain ⟨h2, h3⟩ := hz'.next
    by_cases hr : n % 32 = 31
    · have e1 : w + (n + 1) / 32 = w + n / 32 + 1 := by omega
      rw [e1]
      refine ⟨(ZUC.zuc z).2, ?_, h3⟩
      by_cases hb : Spec.ZUC.msgBit m n
      · simp only [hb, if_true, hr, h2]
      · simp only [hb, hr, h2, if_true, if_false, Bool.false_eq_true]
    · have e1 : w + (n + 1) / 32 = w + n / 32 := by omega
      rw [e1]
      refine ⟨z, ?_, hz'⟩
      by_cases hb : Spec.ZUC.msgBit m n
      · simp only [hb, if_true, hr, if_false]
      · simp only [hb, hr, if_false, Bool.false_eq_true]

/-- An object that has taken `next` words of the key stream, whose keys are the words from `base` on (or zero before the first `write`), with
`bits` bits written and the sum `t`. -/
structure At (s : State) (key iv : Bytes) (next : Nat) (base : Option Nat) (bits : Nat) (t : BitVec 32) : Prop where
  hck : s.ck = key
  hiv : s.iv = iv
  zuc : ZUC.R s.zuc (Spec.ZUC.stateAt key iv next)
  keys : match base with
    | none => s.key0 = 0#32 ∧ s.key1 = 0#32 ∧ bits = 0
    | some b => s.key0 = Spec.ZUC.word key iv b ∧ s.key1 = Spec.ZUC.word key iv (b + 1)
  len : s.length = bits
  ht : s.t = t
  chk : s.isCheck = false

theorem At.alive {s : State} {next bits : Nat} {base : Option Nat} {t : BitVec 32} (h : At s key iv next base bits t) : Alive s key iv :=
  ⟨h.hck, h.hiv, h.zuc.len, h.chk⟩

theorem Fresh.at {s : State} (h : Fresh s key iv) : At s key iv 0 none 0 0#32 := ⟨h.hck, h.hiv, h.zuc, ⟨h.key0, h.key1, rfl⟩, h.len, h.t, h.chk⟩

theorem write_at {s : State} {next bits : Nat} {base : Option Nat} {t : BitVec 32} (h : At s key iv next base bits t) (m : Bytes) :
    ∃ s', write s m = .ok s' ∧ At s' key iv (next + m.length / 4 + 2) (some (next + m.length / 4)) (bits + 8 * m.length)
      (sumFrom key iv next m (8 * m.length) t) := by
  obtain ⟨a1, a2⟩ := h.zuc.next
  obtain ⟨b1, b2⟩ := a2.next
  rw [write, if_neg (by simp [h.chk])]
  unfold absorb
  simp only [a1, b1]
  obtain ⟨z, e, hz⟩ := loop_from (key := key) (iv := iv) m next
    (s := { s with zuc := (ZUC.zuc (ZUC.zuc s.zuc).2).2, key0 := Spec.ZUC.word key iv next, key1 := Spec.ZUC.word key iv (next + 1) }) b2 rfl rfl (m.length * 8)
  rw [e]
  refine ⟨_, rfl, ?_⟩
  have e8 : m.length * 8 = 8 * m.length := Nat.mul_comm _ _
  have e4 : 8 * m.length / 32 = m.length / 4 := by omega
  simp only [e8, e4] at *
  exact ⟨h.hck, h.hiv, hz, ⟨rfl, rfl⟩, by simp [h.len], by simp [h.ht], h.chk⟩

theorem checksum_none {s : State} {next bits : Nat} {t : BitVec 32} (h : At s key iv next none bits t) :
    ∃ s', checksum s = .ok (s', be32 t) ∧ At s' key iv next none bits t := by
  obtain ⟨k0, k1, hb⟩ := h.keys
  subst hb
  unfold checksum
  simp only [h.chk, h.len, k0, k1, h.ht, Bool.false_eq_true, if_false, Nat.zero_mod, if_true, BitVec.xor_zero]
  exact ⟨_, rfl, h.hck, h.hiv, h.zuc, ⟨rfl, rfl, rfl⟩, rfl, rfl, rfl⟩

theorem checksum_aligned {s : State} {next bits b : Nat} {t : BitVec 32} (h : At s key iv next (some b) bits t) (hr : bits % 32 = 0) :
    ∃ s', checksum s = .ok (s', be32 (t ^^^ Spec.ZUC.word key iv b ^^^ Spec.ZUC.word key iv (b + 1))) ∧
      At s' key iv next (some b) bits (t ^^^ Spec.ZUC.word key iv b ^^^ Spec.ZUC.word key iv (b + 1)) := by
  obtain ⟨k0, k1⟩ := h.keys
  unfold checksum
  simp only [h.chk, h.len, k0, k1, h.ht, Bool.false_eq_true, if_false, hr, if_true]
  exact ⟨_, rfl, h.hck, h.hiv, h.zuc, ⟨rfl, rfl⟩, rfl, rfl, rfl⟩

theorem checksum_rest {s : State} {next bits b : Nat} {t : BitVec 32} (h : At s key iv next (some b) bits t) (hr : bits % 32 ≠ 0) :
    ∃ s', checksum s = .ok (s', be32 (t ^^^ Spec.ZUC.z key iv (32 * b + bits % 32) ^^^ Spec.ZUC.word key iv next)) ∧
      At s' key iv (next + 1) (some b) bits (t ^^^ Spec.ZUC.z key iv (32 * b + bits % 32) ^^^ Spec.ZUC.word key iv next) := by
  obtain ⟨k0, k1⟩ := h.keys
  obtain ⟨a1, a2⟩ := h.zuc.next
  have ek := keyWord_eq (key := key) (iv := iv) (32 * b + bits % 32)
  rw [show (32 * b + bits % 32) / 32 = b by omega, show (32 * b + bits % 32) % 32 = bits % 32 by omega, keyWord, if_neg hr] at ek
  unfold checksum
  simp only [h.chk, h.len, k0, k1, h.ht, Bool.false_eq_true, if_false, hr, ek, a1]
  exact ⟨_, rfl, h.hck, h.hiv, a2, ⟨rfl, rfl⟩, rfl, rfl, rfl⟩

end Verif.Model.ZUCMac
