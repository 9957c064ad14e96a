import Verif.Basic

/-! A small lawful block cipher used only in non-vacuity examples and counterexamples -/

namespace Verif.Toy

/-- Reverse the block and add one to every byte. -/
def E (b : Bytes) : Bytes := b.reverse.map (· + 1#8)
/-- Its inverse. -/
def D (b : Bytes) : Bytes := (b.map (· - 1#8)).reverse

/-- A cipher with block size `n`. -/
def cipher (n : Nat) : BlockCipher where
  blockSize := some n
  encrypt b := if b.length = n then .ok (E b) else .error (.err .invalidParameter)
  decrypt b := if b.length = n then .ok (D b) else .error (.err .invalidParameter)

theorem lawful (n : Nat) (h : 0 < n) : Lawful (cipher n) E D where
  pos := h
  enc b hb := by simp only [BlockCipher.bs, cipher, Option.getD] at *; rw [if_pos hb]
  dec b hb := by simp only [BlockCipher.bs, cipher, Option.getD] at *; rw [if_pos hb]
  lenE b hb := by simp [E, hb]
  lenD b hb := by simp [D, hb]
  DE b _ := by
    have : (fun x : Byte => x + 1#8 - 1#8) = id := by funext x; simp [BitVec.add_sub_cancel]
    simp [E, D, List.map_reverse, Function.comp_def, this]
  ED b _ := by
    have : (fun x : Byte => x - 1#8 + 1#8) = id := by funext x; simp [BitVec.sub_add_cancel]
    simp [E, D, Function.comp_def, this]
  encErr b hb := by simp only [BlockCipher.bs, cipher, Option.getD] at *; rw [if_neg hb]
  decErr b hb := by simp only [BlockCipher.bs, cipher, Option.getD] at *; rw [if_neg hb]

end Verif.Toy
