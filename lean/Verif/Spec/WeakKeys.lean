import Verif.Basic

/-!
# Weak keys of DES

NIST SP 800-67, 3.3.2. Does not mention the model.
-/

namespace Verif.Spec.DES

/-- Keys that differ at most in their parity bits (the least significant bit of each byte). -/
def SameKey (k k' : Bytes) : Prop := ∀ i, (k.getD i 0#8) >>> 1 = (k'.getD i 0#8) >>> 1

/-- The four weak keys. -/
def weak : List Bytes := [
  [0x01, 0x01, 0x01, 0x01, 0x01, 0x01, 0x01, 0x01], [0xfe, 0xfe, 0xfe, 0xfe, 0xfe, 0xfe, 0xfe, 0xfe],
  [0xe0, 0xe0, 0xe0, 0xe0, 0xf1, 0xf1, 0xf1, 0xf1], [0x1f, 0x1f, 0x1f, 0x1f, 0x0e, 0x0e, 0x0e, 0x0e]]

/-- The six pairs of semi-weak keys. -/
def semiWeak : List (Bytes × Bytes) := [
  ([0x01, 0xfe, 0x01, 0xfe, 0x01, 0xfe, 0x01, 0xfe], [0xfe, 0x01, 0xfe, 0x01, 0xfe, 0x01, 0xfe, 0x01]),
  ([0x1f, 0xe0, 0x1f, 0xe0, 0x0e, 0xf1, 0x0e, 0xf1], [0xe0, 0x1f, 0xe0, 0x1f, 0xf1, 0x0e, 0xf1, 0x0e]),
  ([0x01, 0xe0, 0x01, 0xe0, 0x01, 0xf1, 0x01, 0xf1], [0xe0, 0x01, 0xe0, 0x01, 0xf1, 0x01, 0xf1, 0x01]),
  ([0x1f, 0xfe, 0x1f, 0xfe, 0x0e, 0xfe, 0x0e, 0xfe], [0xfe, 0x1f, 0xfe, 0x1f, 0xfe, 0x0e, 0xfe, 0x0e]),
  ([0x01, 0x1f, 0x01, 0x1f, 0x01, 0x0e, 0x01, 0x0e], [0x1f, 0x01, 0x1f, 0x01, 0x0e, 0x01, 0x0e, 0x01]),
  ([0xe0, 0xfe, 0xe0, 0xfe, 0xf1, 0xfe, 0xf1, 0xfe], [0xfe, 0xe0, 0xfe, 0xe0, 0xfe, 0xf1, 0xfe, 0xf1])]

/-- Two keys of which each undoes the other: a weak key and itself, or a pair of semi-weak keys in either order; whatever the parity bits. -/
def Mirror (k k' : Bytes) : Prop :=
  (∃ w ∈ weak, SameKey k w ∧ SameKey k' w) ∨ (∃ p ∈ semiWeak, (SameKey k p.1 ∧ SameKey k' p.2) ∨ (SameKey k p.2 ∧ SameKey k' p.1))

end Verif.Spec.DES
